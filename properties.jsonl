{"id": "C01", "title": "Authorization codes are only issued for well-formed requests", "statement": "Whenever the authorization endpoint answers with a code, the request it acted on had a non-empty issuer and subject, a state of at least 32 bytes, a nonce of at least 8 bytes, a 43 byte S256 code challenge, non-empty scope and audience, a parseable redirect URI, a response type of `code` or `token`, and a supported response mode.", "quantifier": "for every authorization request, every client/storage/generator behaviour (including failures), every point in time", "why_tests_cant": "The condition is a conjunction over every field and over every storage answer; tests pick a handful of malformed requests.", "anchors": ["server/services/authorization/service.go:Authorize", "server/services/authorization/service.go:validate"]}
{"id": "C02", "title": "Authorization codes are only issued to a client registered for what it asks", "statement": "Whenever the authorization endpoint answers with a code, the client named in the request is known, is registered for the authorization_code grant, for the requested response type, for the requested redirect URI (up to letter case), and for the effective response mode when one is requested.", "quantifier": "for every request and every answer of the client store", "why_tests_cant": "Requires all combinations of client registrations and request values.", "anchors": ["server/services/authorization/service.go:validateClientCapabilities", "sdk/types/string_array.go:Contains"]}
{"id": "C03", "title": "A code answer is bound to the session that was stored", "statement": "When a code is returned, exactly one session was stored under that issuer and code; it holds the authenticated subject, the issuer and the effective request, and the answer repeats the state, redirect URI and client id of that request and the lifetime the store announced. When no code is returned, no session was stored unless the store itself reported a failure.", "quantifier": "for every request and every storage/generator behaviour, including crash after any storage call", "why_tests_cant": "A test observes one session for one request; the claim is about every interleaving of failures.", "anchors": ["server/services/authorization/service.go:Authorize", "server/storage/inmemory/authorization_code_session.go:Register"]}
{"id": "C04", "title": "Authorization code is redeemed at most once (sequential)", "statement": "If token requests are processed one after another, then a given authorization code yields tokens at most once for each time it was handed out, whatever other requests are processed in between.", "quantifier": "for every finite history of requests of any kind, all timings, all fault patterns", "why_tests_cant": "Needs an induction over histories of unbounded length.", "anchors": ["server/services/token/grant_authorization_code.go:authorizationCode", "server/storage/inmemory/authorization_code_session.go"]}
{"id": "C05", "title": "Authorization code is redeemed at most once (concurrent)", "statement": "Even when two token requests carrying the same code overlap arbitrarily, at most one of them obtains tokens. (Expected to be violated: lookup and deletion are two separate storage calls.)", "quantifier": "for every interleaving of the storage calls of any number of concurrent token requests", "why_tests_cant": "Schedules cannot be enumerated by tests; the failing schedule needs a precise interleaving.", "anchors": ["server/services/token/grant_authorization_code.go:authorizationCode", "server/storage/api.go:AuthorizationCodeSession"]}
{"id": "C06", "title": "Once a redemption has consumed a code no later request can use it", "statement": "After the step in which some token request has deleted a code's session, every token request whose session lookup happens later fails with invalid_grant and issues nothing, unless an authorization hands out the same code again.", "quantifier": "for every interleaving, crash point and fault pattern", "why_tests_cant": "Crash points and schedules are unbounded.", "anchors": ["server/services/token/grant_authorization_code.go:authorizationCode", "server/storage/inmemory/authorization_code_session.go:Delete"]}
{"id": "C07", "title": "Authorization codes expire", "statement": "Tokens are obtained from an authorization code only if the token request's session lookup happens at most 60 seconds after an authorization stored that code; the lifetime announced with every code is 60 seconds.", "quantifier": "for every history and every passage of time between steps", "why_tests_cant": "Time is quantified; tests use a fixed clock.", "anchors": ["server/services/token/grant_authorization_code.go:authorizationCode", "server/storage/inmemory/authorization_code_session.go"]}
{"id": "C08", "title": "PKCE binding of the authorization code grant", "statement": "Tokens are obtained from a code only when the presented code_verifier (43 to 128 bytes) hashes (SHA-256, base64url without padding) to the code_challenge submitted with the authorization request that produced the code.", "quantifier": "for every history, every code, verifier and storage behaviour", "why_tests_cant": "Universally quantified over verifiers and over histories linking two endpoints.", "anchors": ["server/services/token/grant_authorization_code.go:authorizationCode", "server/services/authorization/service.go:validate"]}
{"id": "C09", "title": "Redirect URI binding of the authorization code grant", "statement": "Tokens are obtained from a code only when the redirect URI presented to the token endpoint is byte-for-byte the one of the authorization request, and is registered (up to letter case) for the redeeming client.", "quantifier": "for every history, request and storage behaviour", "why_tests_cant": "Universally quantified over URIs and histories.", "anchors": ["server/services/token/grant_authorization_code.go:authorizationCode"]}
{"id": "C10", "title": "Client binding of the authorization code grant", "statement": "Tokens are obtained from a code only by the client for which the code was issued. (Expected to be violated: only the redirect URI is compared.)", "quantifier": "for every history and pair of clients", "why_tests_cant": "Absence of a check cannot be seen by tests of the present checks.", "anchors": ["server/services/token/grant_authorization_code.go:authorizationCode", "proto/oidc/flow/v1/flow_api.proto:AuthorizeResponse"]}
{"id": "C11", "title": "A failed redemption attempt consumes the code", "statement": "Whenever a token request finds the session of a code and the store accepts its deletion, the code is gone afterwards even when the request is then refused (wrong redirect URI, wrong verifier): no guess can be retried.", "quantifier": "for every request and every subsequent history", "why_tests_cant": "Quantifies over all later attempts.", "anchors": ["server/services/token/grant_authorization_code.go:authorizationCode", "server/storage/inmemory/authorization_code_session.go:Delete"]}
{"id": "C12", "title": "Tokens from a code carry what the user approved", "statement": "Access and refresh tokens obtained from a code carry the subject, scope and audience recorded when the code was issued, the issuer of the token request, the client id of the redeeming client, and the proof-of-possession key of the token request.", "quantifier": "for every history, request and storage behaviour", "why_tests_cant": "Links two endpoints through storage for all values.", "anchors": ["server/services/token/grant_authorization_code.go:authorizationCode", "server/services/token/generator.go"]}
{"id": "C13", "title": "Code grant issues tokens exactly for openid scope, refresh tokens exactly for offline_access", "statement": "A successful code redemption returns an access token if and only if the approved scope contains `openid`, and a refresh token if and only if it contains both `openid` and `offline_access` (case-insensitively).", "quantifier": "for every session content and storage behaviour", "why_tests_cant": "Quantifies over all scope strings.", "anchors": ["server/services/token/grant_authorization_code.go:authorizationCode"]}
{"id": "C14", "title": "offline_access requires consent", "statement": "A refresh token is never obtainable from the code flow unless the authorization request asked for prompt=consent. (Expected to be violated: only the first duplicate of offline_access is removed.)", "quantifier": "for every authorization request, scope string and prompt value", "why_tests_cant": "The counterexample needs a duplicated scope; tests use a single occurrence.", "anchors": ["server/services/authorization/service.go:validate", "sdk/types/string_array.go:Remove", "server/services/token/grant_authorization_code.go"]}
{"id": "C15", "title": "Pushed authorization requests are used verbatim and once", "statement": "When an authorization request refers to a pushed request, the code is issued for the pushed request (not for parameters supplied by the browser), the pushed request is consumed by the lookup, and in any sequential history each successful push leads to at most one code.", "quantifier": "for every history, fault pattern and timing", "why_tests_cant": "Induction over histories.", "anchors": ["server/services/authorization/service.go:Authorize", "server/services/authorization/service.go:Register", "server/storage/inmemory/authorization_request.go"]}
{"id": "C16", "title": "Only the owning client can push a request, without nesting", "statement": "A push answers with a request_uri only if the request is valid, names the authenticated client, and does not itself contain a request_uri.", "quantifier": "for every push request and storage behaviour", "why_tests_cant": "Quantifies over all requests and stores.", "anchors": ["server/services/authorization/service.go:Register"]}
{"id": "C17", "title": "Pushed request URIs issued by the shipped generator are accepted by the shipped validator", "statement": "Every request_uri handed out by the push endpoint with the default generator passes the syntax check of the authorization endpoint. (Expected to be violated: the generator omits the urn prefix.)", "quantifier": "for every random output of the generator", "why_tests_cant": "A statement about every generated value.", "anchors": ["sdk/generator/request_uri.go", "server/services/authorization/service.go:Authorize"]}
{"id": "C18", "title": "The jwt response mode alias is always expanded and checked against the client", "statement": "A session created by the authorization endpoint never carries response_mode `jwt`: it is replaced by query.jwt for response type code and fragment.jwt for token, and the replaced value is the one checked against the client registration.", "quantifier": "for every request and client", "why_tests_cant": "Quantifies over all requests.", "anchors": ["server/services/authorization/service.go:validate"]}
{"id": "C19", "title": "Every grant requires the client to be registered for it", "statement": "The token endpoint returns a token only if the authenticated client is known to the store and the client as stored lists the grant type in use.", "quantifier": "for every token request of every grant type and every storage behaviour", "why_tests_cant": "All grants times all registrations times all failures.", "anchors": ["server/services/token/service.go:Token", "server/services/token/grant_*.go"]}
{"id": "C20", "title": "Client credentials never act for a user and never get a refresh token", "statement": "A client_credentials request obtains tokens only for confidential or credentialed clients; the token has an empty subject, the client's own id, and no refresh token is returned or stored.", "quantifier": "for every request and storage behaviour", "why_tests_cant": "Quantifies over all requests.", "anchors": ["server/services/token/grant_client_credentials.go"]}
{"id": "C21", "title": "Bounded and exact token lifetimes", "statement": "Every token ever created by the token endpoint has iat equal to the current second and exp = iat + 3600 (access token), iat + 604800 (refresh token) or iat + 60 (exchanged token); nbf = iat + 1 for the first two. No token with another lifetime ever enters the store.", "quantifier": "for every reachable state of the server under any interleaving of requests", "why_tests_cant": "Invariant over all histories and schedules.", "anchors": ["server/services/token/generator.go", "server/services/token/grant_token_exchange.go"]}
{"id": "C22", "title": "Returned tokens are stored before they are returned", "statement": "Whenever the token endpoint returns a token, the store acknowledged its creation with the returned value before the answer, under the request's issuer or, for a refresh, under the issuer named in the refresh token; in histories without clashing keys these are the same, and the token names that issuer. The value is never empty.", "quantifier": "for every request, storage/generator behaviour", "why_tests_cant": "Quantifies over all failure patterns.", "anchors": ["server/services/token/generator.go", "server/services/token/grant_token_exchange.go", "server/storage/inmemory/token.go:Create"]}
{"id": "C23", "title": "Fail closed", "statement": "If any storage or generator call of a token request reports an error, the endpoint reports an error and returns no access token. (A refresh-token failure in the code grant leaves a stored access token that was never returned.)", "quantifier": "for every grant type, every position of the failing call, every kind of failure", "why_tests_cant": "Fault positions multiply with inputs.", "anchors": ["server/services/token/grant_*.go", "server/services/token/service.go"]}
{"id": "C24", "title": "Refresh tokens are usable only by their owner, while active and unexpired", "statement": "A refresh request obtains tokens only if the presented value designates a stored token that is a refresh token, active at lookup, not expired, and owned by the authenticated client.", "quantifier": "for every request and storage behaviour", "why_tests_cant": "Quantifies over all stored tokens and requests.", "anchors": ["server/services/token/grant_refresh_token.go"]}
{"id": "C25", "title": "Refreshing never changes subject, scope, audience, issuer or key binding", "statement": "Every token reachable by any chain of refreshes from an initial grant carries the same subject, scope, audience, client, issuer and proof-of-possession key as the initial refresh token.", "quantifier": "for every finite chain of refreshes in every history", "why_tests_cant": "Induction on chain length.", "anchors": ["server/services/token/grant_refresh_token.go", "server/services/token/generator.go"]}
{"id": "C26", "title": "Refresh token rotation revokes the old token", "statement": "When a refresh answer contains a new refresh token, the old one has been revoked and can never be used again; a new refresh token is issued exactly when the new access token would outlive the old refresh token. (Rotation on every use is expected to be violated.)", "quantifier": "for every history and clock value", "why_tests_cant": "Quantifies over time and later histories.", "anchors": ["server/services/token/grant_refresh_token.go", "server/storage/inmemory/token.go:Revoke"]}
{"id": "C27", "title": "Revocation is final", "statement": "After a revocation request for a token succeeded, every later introspection reports it revoked and it never again yields tokens by refresh or exchange, provided generators do not repeat identifiers or values.", "quantifier": "for every later history of requests, under any interleaving", "why_tests_cant": "Induction over unbounded later histories.", "anchors": ["server/services/token/revoke.go", "server/storage/inmemory/token.go:Revoke", "server/services/token/introspection.go"]}
{"id": "C28", "title": "Revocation revokes the presented token", "statement": "A successful revocation of a value leaves the token designated by that value revoked. (Expected to fail when two tokens share an identifier: the id index is keyed by a short random identifier only.)", "quantifier": "for every store content", "why_tests_cant": "Needs identifier collisions that tests never produce.", "anchors": ["server/services/token/revoke.go", "server/storage/inmemory/token.go"]}
{"id": "C29", "title": "Token exchange keeps subject, issuer and key binding", "statement": "An exchanged token carries the subject, issuer and proof-of-possession key of the subject token, which was active, an access token and unexpired at lookup; it lives 60 seconds and belongs to the requesting client.", "quantifier": "for every request and storage behaviour", "why_tests_cant": "Quantifies over all tokens.", "anchors": ["server/services/token/grant_token_exchange.go"]}
{"id": "C30", "title": "Token exchange cannot widen scope", "statement": "The scope of an exchanged token is a subset of the scope of the subject token. (Expected to be violated: the requested scope is taken as is.)", "quantifier": "for every request", "why_tests_cant": "Absence of check.", "anchors": ["server/services/token/grant_token_exchange.go:155-158"]}
{"id": "C31", "title": "Token exchange reports unusable audiences as errors", "statement": "A token exchange that names an audience which the resource store cannot resolve is answered with an OAuth error and never crashes. (Expected to be violated for both not-found and other failures.)", "quantifier": "for every answer of the resource store", "why_tests_cant": "Both branches are mis-ordered; tests cover one mock path.", "anchors": ["server/services/token/grant_token_exchange.go:178-190"]}
{"id": "C32", "title": "Introspection reveals claims of usable tokens only", "statement": "The introspection answer says active=true exactly when the token is stored, not revoked, and nbf <= now <= exp; all other claims are present only in that case.", "quantifier": "for every token, time and store", "why_tests_cant": "Quantifies over time boundaries and all tokens.", "anchors": ["sdk/token/introspection.go", "sdk/token/helpers.go:IsUsable", "server/services/token/introspection.go"]}
{"id": "C33", "title": "Issuers are isolated", "statement": "A code, pushed request or token obtained under one issuer is not accepted under another issuer. (Expected to be violated in general: storage keys concatenate issuer and value without separator.)", "quantifier": "for all pairs of issuers and values", "why_tests_cant": "Needs adversarial issuer/value pairs.", "anchors": ["server/storage/inmemory/authorization_code_session.go:deriveKey", "server/storage/inmemory/token.go:deriveValue"]}
{"id": "C34", "title": "Device tokens require the user's approval and the same client", "statement": "A device_code request obtains tokens only if the session of that device code was approved by a user and is unexpired, was started by the same client, and the tokens carry the approving user as subject and the scope requested at start.", "quantifier": "for every history, request and storage behaviour", "why_tests_cant": "Links three endpoints through storage for all values.", "anchors": ["server/services/token/grant_device_code.go", "server/services/device/service.go:Validate"]}
{"id": "C35", "title": "The device flow can complete", "statement": "A device authorization that the user approves within its lifetime lets the device obtain tokens. (Expected to be violated with the shipped store: the session expiry is never set.)", "quantifier": "for every history", "why_tests_cant": "A liveness failure that mocks hide, since tests build sessions by hand.", "anchors": ["server/services/device/service.go:Authorize", "server/services/device/service.go:Validate", "server/services/token/grant_device_code.go"]}
{"id": "C36", "title": "A user code is approved at most once", "statement": "In any sequential history a device session is approved at most once, and its approving subject never changes afterwards. (Expected to be violated for overlapping approvals.)", "quantifier": "for every history", "why_tests_cant": "Induction over histories.", "anchors": ["server/services/device/service.go:Validate", "server/storage/inmemory/device_code_session.go"]}
{"id": "C37", "title": "A device code yields tokens at most once", "statement": "A device code is exchanged for tokens at most once. (Expected to be violated: sessions are not removed on redemption.)", "quantifier": "for every history", "why_tests_cant": "Needs a second redemption attempt after success.", "anchors": ["server/services/token/grant_device_code.go", "server/storage/inmemory/device_code_session.go:Delete"]}
{"id": "C38", "title": "Accepted DPoP proofs match the request", "statement": "A DPoP proof is accepted only if it is signed by the key embedded in its header, its type header is right, its htm and htu equal the request's method and URL, its iat lies within 15 seconds of now, and, when an access token is presented, its ath is that token's hash.", "quantifier": "for every proof, request and time", "why_tests_cant": "Conjunction over all fields for every input.", "anchors": ["sdk/dpop/verifier.go:Verify", "sdk/dpop/verifier.go:validateProofClaims"]}
{"id": "C39", "title": "DPoP proofs cannot be replayed (sequential)", "statement": "If verifications do not overlap and each looks up the proof cache within 29 seconds of reading the clock, a DPoP proof (identified by its jti) is accepted at most once ever with the shipped proof cache, because the cache outlives the acceptance window. (Without the promptness proviso the claim is false: a stalled verification can be replayed.)", "quantifier": "for every history of verifications and every passage of time", "why_tests_cant": "Requires reasoning about two time windows for all clock values.", "anchors": ["sdk/dpop/verifier.go:checkProofCache", "server/storage/inmemory/proof.go"]}
{"id": "C40", "title": "DPoP proofs cannot be replayed (concurrent)", "statement": "The same proof presented twice concurrently is accepted at most once. (Expected to be violated: existence check and registration are separate calls.)", "quantifier": "for every interleaving", "why_tests_cant": "Schedules.", "anchors": ["sdk/dpop/verifier.go:checkProofCache"]}
{"id": "C41", "title": "Authorization response JWT round trip", "statement": "An encoded authorization response decodes, before its expiry, to the same code, state, and issuer for the client it was encoded for, and is refused for another audience, issuer, or after expiry.", "quantifier": "for every response, audience, issuer and clock value", "why_tests_cant": "Universal over values.", "anchors": ["sdk/jarm/encoder.go", "sdk/jarm/decoder.go"]}
{"id": "C42", "title": "private_key_jwt authenticates only the key holder", "statement": "Client authentication by signed assertion succeeds only for the client named by both iss and sub, known to the store, whose registered keys verify the assertion's signature, with unexpired exp.", "quantifier": "for every assertion and store behaviour", "why_tests_cant": "Universal over assertions.", "anchors": ["server/clientauthentication/private_key_jwt.go", "sdk/jwk/signature.go"]}
{"id": "C43", "title": "Client attestation binds the attested client", "statement": "Attestation-based authentication authenticates the client that the attester attested. (Expected to be violated: the proof's issuer is used without comparison to the attested subject.)", "quantifier": "for every pair of attestation and proof", "why_tests_cant": "Absence of check.", "anchors": ["server/clientauthentication/client_attestation.go"]}
{"id": "C44", "title": "String set helpers behave as case-insensitive sets", "statement": "Contains, HasOneOf, HasAll, AddIfNotContains and Remove agree with case-insensitive membership. (Remove and HasAll are expected to deviate for duplicates and the empty list.)", "quantifier": "for every list and item", "why_tests_cant": "Unbounded lists.", "anchors": ["sdk/types/string_array.go"]}
{"id": "C45", "title": "Constant-time comparison decides equality", "statement": "SecureCompare returns true exactly for equal byte strings.", "quantifier": "for every pair of byte strings", "why_tests_cant": "Unbounded; includes the 32-bit length truncation.", "anchors": ["sdk/types/compare.go"]}
{"id": "C46", "title": "Verifiable identifiers round trip", "statement": "Extracting from a generated verifiable token with the same key yields the original identifier, for every identifier, nonce, prefix and key.", "quantifier": "for every uuid, nonce, key, prefix", "why_tests_cant": "Padded base62 edge cases (leading zeros) are unbounded.", "anchors": ["sdk/token/verifiable/uuid.go", "sdk/token/verifiable/helpers.go"]}
{"id": "C47", "title": "Verifiable identifiers are authenticated and extraction never crashes", "statement": "Extraction accepts a string only if its authentication tag is the keyed tag of its prefix, identifier and nonce; and it never crashes. (The second half is expected to be violated for oversized base62 digits.)", "quantifier": "for every input string", "why_tests_cant": "All strings.", "anchors": ["sdk/token/verifiable/uuid.go:Extract", "sdk/token/verifiable/helpers.go:parsePaddedBase62"]}
{"id": "C48", "title": "Generated PKCE pairs are accepted by the token endpoint", "statement": "A verifier/challenge pair produced by the client library has the lengths and relation the authorization and token endpoints require. The library's own Validate should accept it too (expected to be violated).", "quantifier": "for every random output", "why_tests_cant": "All random values.", "anchors": ["sdk/pkce/verifier.go", "server/services/authorization/service.go:validate", "server/services/token/grant_authorization_code.go"]}
{"id": "C49", "title": "Pairwise subjects separate sectors", "statement": "Pairwise identifiers are deterministic, and differ for different (sector, subject) pairs up to hash collisions. (Expected to be violated: sector and subject are concatenated.)", "quantifier": "for all sectors and subjects", "why_tests_cant": "Adversarial pairs.", "anchors": ["sdk/pairwise/hash.go"]}
{"id": "C50", "title": "Token payload generators enforce their lifetime policy", "statement": "The access-token, refresh-token and client-assertion generators produce a signed token only if iat <= now, iat <= nbf <= exp and exp within the allowed maximum of iat, and all mandatory claims are present.", "quantifier": "for every token specification and time", "why_tests_cant": "All boundary combinations.", "anchors": ["sdk/token/access_token.go", "sdk/token/refresh_token.go", "sdk/token/client_assertion.go"]}
{"id": "C51", "title": "Resource server accepts only usable, properly bound tokens", "statement": "The resource server's authorizer lets a request through only if introspection reports an active token, bearer use only for unbound tokens, DPoP use only with a fresh proof by the key the token is bound to for this method, URL and token, the identity is permitted for the intent, and a reported authentication time or level meets the demanded one; such requests do get through; and it never crashes on any Authorization header (expected to be violated for a scheme without a token). With the shipped client library as the introspecting client, requests do get through (expected to be violated: its decoding crashes).", "quantifier": "for every request and introspection answer", "why_tests_cant": "All header values.", "anchors": ["examples/resourceserver/middleware.go", "client/http.go:Introspect", "client/claims.go"]}
{"id": "C52", "title": "Binary message encoding round trips", "statement": "The binary codec keeps messages: for every token, request, response, client and session message, what is written has the computed size and decodes to the same message; whatever any input decodes to can be written and decoded again with the same result, unknown fields included; different messages have different encodings; the order in which the encoder takes the entries of a map does not matter; and no input crashes the decoder.", "quantifier": "for every message value and every byte string and every order of map entries", "why_tests_cant": "Unbounded field values; varint lengths.", "anchors": ["api/oidc/token/v1/token_vtproto.pb.go", "api/oidc/flow/v1/flow_vtproto.pb.go", "api/oidc/flow/v1/flow_api_vtproto.pb.go", "api/oidc/client/v1/client_vtproto.pb.go", "api/oidc/session/v1/session_vtproto.pb.go", "api/oidc/discovery/v1/server_vtproto.pb.go"]}
{"id": "C53", "title": "Signature verification ignores encryption keys and requires a matching key", "statement": "A signed token is accepted against a key set only if some key of the set that is not marked for encryption verifies the signature.", "quantifier": "for every key set and token", "why_tests_cant": "All key sets.", "anchors": ["sdk/jwk/signature.go", "sdk/token/jwt/verifier.go"]}
{"id": "C54", "title": "Error answers never carry a code or token", "statement": "Every answer of the authorization, token and device endpoints that reports an OAuth error carries no code, no request_uri, no device code and no token, and every Go error is accompanied by an OAuth error. (The second half is expected to be violated by token exchange and revocation.)", "quantifier": "for every request and storage behaviour", "why_tests_cant": "All failure combinations.", "anchors": ["server/services/authorization/service.go", "server/services/device/service.go", "server/services/token/*.go"]}
{"id": "C55", "title": "Services never crash", "statement": "No request makes the authorization, token or device services dereference a nil pointer or index out of range when the store honours its contract. (Expected to be violated by token exchange on resource store failure.)", "quantifier": "for every request and every storage behaviour", "why_tests_cant": "All inputs.", "anchors": ["server/services/authorization/service.go", "server/services/device/service.go", "server/services/token/*.go"]}
{"id": "C56", "title": "User codes are easy to type and of fixed shape", "statement": "Generated device user codes have the documented shape: two groups of four letters from the 20-letter alphabet, or three groups of three digits.", "quantifier": "for every random source output", "why_tests_cant": "All random values.", "anchors": ["sdk/generator/device_user_code.go"]}
{"id": "C57", "title": "Correct clients are served", "statement": "After any history, a well-formed authorization request of a registered client served without storage faults is answered with a code; presenting that code within 60 seconds with the right redirect URI and verifier yields tokens for the authorizing user, provided no other request stored or deleted a session under that code; an active, unexpired refresh token presented by its client yields a new access token; an active, unexpired access token presented by a client with the exchange grant, without audience or for a known resource, yields a stored access token of the same user for one minute.", "quantifier": "for every history, store content, request, client and fault-free execution", "why_tests_cant": "All prior histories of the server and all generator outputs.", "anchors": ["server/services/authorization/service.go:Authorize", "server/services/token/grant_authorization_code.go", "server/services/token/grant_refresh_token.go"]}
{"id": "C58", "title": "Generated codes pass their own syntax check", "statement": "Every authorization code and device code of the shipped generators has 32 alphanumeric characters and is accepted by the generator's Validate.", "quantifier": "for every random output", "why_tests_cant": "All random values.", "anchors": ["sdk/generator/authorization_code.go", "sdk/generator/device_code.go"]}
{"id": "C59", "title": "Client assertions are addressed to this server and used once", "statement": "A signed client assertion is accepted only if its audience designates this authorization server, and at most once. (Expected to be violated: the audience is only required to be present and the assertion identifier is not remembered.)", "quantifier": "for every assertion, audience and history", "why_tests_cant": "Absence of a check and of any state change, over all requests.", "anchors": ["server/clientauthentication/private_key_jwt.go:Authenticate", "server/clientauthentication/client_attestation.go:Authenticate"]}
{"id": "C60", "title": "Client authentication never crashes", "statement": "No request, however its assertion is built, makes client authentication crash, whatever the client store answers within its contract.", "quantifier": "for every request, parsed assertion and store behaviour", "why_tests_cant": "All attacker-built assertions.", "anchors": ["server/clientauthentication/private_key_jwt.go", "server/clientauthentication/client_attestation.go"]}
{"id": "C61", "title": "Minted tokens satisfy the signed-token policy", "statement": "Every token specification built by the grants is accepted by the shipped signed access-token and refresh-token generators whenever its texts are printable and its issuer is a URL. (Expected to be violated: client credentials have no subject, device tokens no audience, exchanged tokens no nbf.)", "quantifier": "for every grant request, execution and later clock value", "why_tests_cant": "Interaction of two components over all specifications and times.", "anchors": ["server/services/token/generator.go", "server/services/token/grant_token_exchange.go", "server/services/token/grant_client_credentials.go", "server/services/token/grant_device_code.go", "sdk/token/access_token.go:validateMeta", "sdk/token/refresh_token.go:validateMeta"]}
{"id": "C62", "title": "DPoP proofs of the SDK prover are accepted by the SDK verifier", "statement": "A proof made by the prover for a method, a URL and an access token is accepted by the verifier for that method, URL and token within the time window, and for no other URL. (Expected to be violated: the shipped signer writes the header type \"dpop\" and the verifier wants \"dpop+jwt\".)", "quantifier": "for every method, URL, token, key and clock", "why_tests_cant": "Universal over values and two independently written components.", "anchors": ["sdk/dpop/prover.go", "sdk/dpop/verifier.go", "sdk/token/jwt/builders.go:DPoPSigner"]}
{"id": "C63", "title": "Endpoints act only for authenticated callers", "statement": "The client endpoints (/token, /token/introspect, /token/revoke, /par, /device/authorize) answer anything but 401, or touch any store other than the client registry, only for a request that comes from a registered client: named when public, else authenticated by a registered key or a client attestation. The user endpoints require the user's credentials. Tokens answered by /token were stored before the answer, active, for the client registered under that identifier.", "quantifier": "for every HTTP request, server configuration and storage behaviour", "why_tests_cant": "All requests and all storage answers across middleware, handler and service.", "anchors": ["examples/authorizationserver/middleware/client_auth.go", "examples/authorizationserver/middleware/basic_auth.go", "examples/authorizationserver/handlers/token.go"]}
{"id": "C64", "title": "Token type announced over HTTP matches the stored binding", "statement": "A token request with a DPoP proof is answered with type DPoP and tokens stored with the thumbprint of the key that signed the proof for this method and URL; without a proof the tokens are bearer tokens without confirmation, and only for clients that do not insist on bound tokens. (Expected to be violated by the refresh grant, which ignores the proof.)", "quantifier": "for every HTTP token request and execution", "why_tests_cant": "Relation between the answer, the store and the proof over all requests.", "anchors": ["examples/authorizationserver/handlers/token.go", "server/services/token/grant_refresh_token.go", "sdk/dpop/verifier.go"]}
{"id": "C65", "title": "No HTTP request crashes an endpoint", "statement": "No HTTP request makes a handler of the example server panic while the stores honour their contract. (Expected to be violated by redemption of a code without openid, and by revocation of an unknown token.)", "quantifier": "for every route, request and contract-honouring storage behaviour", "why_tests_cant": "All requests.", "anchors": ["examples/authorizationserver/handlers/*.go", "server/services/token/revoke.go"]}
{"id": "C66", "title": "Device authorizations are recorded for the authenticated client", "statement": "The session stored by /device/authorize is that of the client which authenticated the request. (Expected to be violated: the handler reads client_id from the form.)", "quantifier": "for every request and execution", "why_tests_cant": "All combinations of query and body parameters.", "anchors": ["examples/authorizationserver/handlers/device_authorization.go", "examples/authorizationserver/middleware/client_auth.go"]}
{"id": "C67", "title": "Authorization codes come from request objects signed by their client", "statement": "/authorize issues a code only to the logged-in user, for a request object signed with a registered non-encryption key of the client to which the code is issued; the code's session has the user's subject, or the pairwise pseudonym for that client's sector. (Expected to be violated: the key is looked up with the query's client_id, the code is issued to the object's.)", "quantifier": "for every request, key set, parser and execution", "why_tests_cant": "All signed objects and all key sets.", "anchors": ["examples/authorizationserver/handlers/authorization.go", "sdk/jwsreq/decoder.go"]}
{"id": "C68", "title": "Authorization answers carry the code to the client's redirect URI in the requested mode", "statement": "The answer of /authorize redirects to the redirect URI of the request for which the code was stored, in the response mode of that request, with a signed content naming this issuer, the client, the code, the state and the expiry of the code. (Expected to be violated for the response mode.)", "quantifier": "for every request and execution", "why_tests_cant": "All requests.", "anchors": ["examples/authorizationserver/handlers/authorization.go", "sdk/jarm/encoder.go", "server/services/authorization/service.go"]}
{"id": "C69", "title": "Advertised grants are the grants served", "statement": "/token answers tokens only for grants advertised in the server metadata and registered by the client, and can answer tokens for each advertised grant. (Expected to be violated: token exchange is advertised but its parameters are never read.)", "quantifier": "for every request and execution", "why_tests_cant": "Universal absence.", "anchors": ["examples/authorizationserver/handlers/metadata.go", "examples/authorizationserver/handlers/token.go"]}
{"id": "C70", "title": "Device authorization stores one pending session of a registered client", "statement": "A device authorization answer is given only for a client that the store knows under the id in the request and that is registered for the device grant; exactly one session is stored, under the announced user code and with the announced device code, for exactly the requested scope and audience, without subject and not approved; and no other request ever stores a device session.", "quantifier": "for every request, store behaviour and interleaving", "why_tests_cant": "Unbounded histories, every store and generator answer, and the absence of any other way to store a session.", "anchors": ["server/services/device/service.go:Authorize"]}
{"id": "C71", "title": "Only the owner of a token can revoke it", "statement": "A token becomes revoked only through a request of the client it was issued to: a revocation request or a refresh with rotation. (Violated: the revocation service does not compare the client with the owner, RFC 7009 section 2.1.)", "quantifier": "for every history of the server", "why_tests_cant": "Requires all interleavings of all clients and the absence of other ways to revoke.", "anchors": ["server/services/token/revoke.go", "server/services/token/grant_refresh_token.go"]}
{"id": "C72", "title": "A request object says exactly one request, and only its signer can say it", "statement": "A request object is accepted as a request exactly if a signature key of the client (with the key id of the token, not an encryption key) checks its signature and its payload is a JSON object with only names of request parameters, none of them twice under either spelling, and with every parameter of the request as given; whatever the order of the members it says one request; the object the library encodes for a request is decoded to the same request; objects with exp, nbf, iat, jti or aud claims are refused, so usable request objects never expire.", "quantifier": "for every token, key set, payload and request", "why_tests_cant": "All 23 parameters with both spellings and all orders and combinations of members; the negative cases are not enumerable.", "anchors": ["sdk/jwsreq/decoder.go:Decode", "sdk/jwsreq/encoder.go:Encode"]}
{"id": "C73", "title": "The client library gets its tokens from the example server", "statement": "A client of the library that is registered with its public key for the client credentials grant obtains, if the interfaces of the server work and the server sees its assertion within 30 seconds, a bearer token stored for it and no refresh token, and the server does not crash; and it learns by introspection whether a token is active.", "quantifier": "for every registered client, key, server, clock and store answer in every completed execution", "why_tests_cant": "The two programs are tested apart, against stubs; the composition for all registrations and times is not run.", "anchors": ["client/http.go:Assertion", "client/http.go:ClientCredentials", "client/http.go:Introspect", "examples/authorizationserver/handlers/token.go:Token", "server/clientauthentication/private_key_jwt.go:Authenticate"]}
{"id": "C74", "title": "Key sets handed out by the client come from the server and have not expired", "statement": "Every key set handed out by a client is not empty, was served by the server for this call or an earlier one with the expiration handed out, was not expired when it was served, and is handed out again only before its expiration; a usable answer of the server is always enough for success; sets without expiration are never kept; no answer makes the client crash.", "quantifier": "for every sequence of calls, every behaviour of the clock and every sequence of answers", "why_tests_cant": "The cache makes the outcome depend on the whole history of calls and clock values.", "anchors": ["client/http.go:PublicKeys"]}
{"id": "C75", "title": "The attestation example gets a token, and only for keys that were proved", "statement": "A client whose key was attested by the attestation server and that proves the possession of this key obtains a token from the example server; the attestation server attests a key for a client only on evidence, and does not crash.", "quantifier": "for every key, time and answer of the interfaces", "why_tests_cant": "Three programs with their keys, clocks and algorithms have to be composed.", "anchors": ["examples/attestationserver/main.go:signHandler", "examples/attestationclient/main.go:getToken", "server/clientauthentication/client_attestation.go:Authenticate", "examples/authorizationserver/main.go:main"]}
{"id": "C76", "title": "Introspection requires an authenticated caller", "statement": "The introspection endpoint tells something about a token only to a caller that proved to be a registered client with a signature.", "quantifier": "for every request, server and execution", "why_tests_cant": "Requires all ways through the middleware, with all answers of the store.", "anchors": ["examples/authorizationserver/middleware/client_auth.go:ClientAuthentication", "examples/authorizationserver/handlers/token_introspection.go:TokenIntrospection"]}
{"id": "C77", "title": "Error answers can be understood by any client", "statement": "Every error answer carries its code in the member error, with a code that is registered for OAuth; the client library reads exactly the code, the description and the state that the server built, all in the characters RFC 6749 allows, and tells any two errors apart.", "quantifier": "for every error with every state", "why_tests_cant": "The codes reach the wire through generated JSON code with options; tests compare messages, not members, and no test reads the bodies with the client.", "anchors": ["sdk/rfcerrors/builder.go:Build", "api/oidc/core/v1/error.pb.json.go:MarshalJSON", "examples/authorizationserver/respond/helpers.go:WithError", "client/http.go:ClientCredentials"]}
{"id": "C78", "title": "Signed server metadata is a signature of the metadata it comes with", "statement": "Every answer of the metadata endpoint describes the server and carries a signature, verifiable with the published keys, of exactly this description without the signature.", "quantifier": "for every interleaving of any number of requests, every key and signing library", "why_tests_cant": "Depends on the interleaving of requests that share the description; tests send one request.", "anchors": ["examples/authorizationserver/handlers/metadata.go:Metadata", "sdk/token/jwt/signer.go:Serialize"]}
{"id": "C79", "title": "What the server advertises is what it does", "statement": "Every endpoint, algorithm and authorization parameter (response type, response mode, challenge method) in the server metadata is served and accepted by the handler it stands for, everything that is served or accepted is advertised, and members without a value are left out.", "quantifier": "for every issuer, proof, request and execution", "why_tests_cant": "The description is a literal in one file and the behaviour is spread over the others; a test would have to be written for each pair.", "anchors": ["examples/authorizationserver/handlers/metadata.go:Metadata", "examples/authorizationserver/main.go:main", "sdk/dpop/verifier.go:Verify", "examples/authorizationserver/handlers/device_authorization.go:DeviceAuthorization", "server/services/authorization/service.go:validate"]}
{"id": "C80", "title": "A client works with the server it was given", "statement": "After its construction a client holds the description and keys of the issuer it was given and of no other one; it refuses a description of another issuer and never crashes; what it signs for one server is of no use at another.", "quantifier": "for every issuer, every answer of the servers and every execution", "why_tests_cant": "Needs a hostile server and the composition of two servers and a client.", "anchors": ["client/http.go:HTTP", "client/http.go:Assertion", "server/clientauthentication/private_key_jwt.go:Authenticate"]}
{"id": "C81", "title": "The endpoints use what is presented and answer with what was stored", "statement": "Tokens are answered for the code, device code or refresh token in the form, to the user, scope and audience stored under it; the verifier and the redirection URI are the ones in the form; the lifetime is the one of the stored token. A pushed request is stored for the authenticated client under the answered URI. The answered device and user codes are those of the stored session. A device is approved for the authenticated user and the posted user code.", "quantifier": "for every server, request and execution, even interrupted", "why_tests_cant": "The fields travel by name through forms, messages, services and stores; tests look at the status or at one layer.", "anchors": ["examples/authorizationserver/handlers/token.go:Token", "examples/authorizationserver/handlers/par.go:PushedAuthorizationRequest", "examples/authorizationserver/handlers/device_authorization.go:DeviceAuthorization", "examples/authorizationserver/handlers/device_validation.go:Device"]}
{"id": "C82", "title": "Codes are sent to registered redirect URIs only", "statement": "The redirect URI of an answer that carries a code is one of the URIs registered for the client, byte by byte (RFC 6749 section 3.1.2.3, RFC 9700 section 2.1). (Expected to fail: the comparison ignores letter case as Unicode sees it.)", "quantifier": "for every request, registration, execution and URI", "why_tests_cant": "The other spellings of a URI are an unbounded set; the ones that Unicode adds and malformed UTF-8 are not in test data.", "anchors": ["server/services/authorization/service.go:validateClientCapabilities", "sdk/types/string_array.go:Contains"]}
{"id": "C83", "title": "DPoP proofs are made for the URL that was called", "statement": "A request is let through under DPoP, by the resource server and the token endpoint, only with a proof whose htu is the URL that was called (RFC 9449 section 4.3). (Expected to fail: the scheme comes from an unauthenticated header, whatever it holds.)", "quantifier": "for every server, request, header, proof and execution", "why_tests_cant": "The header holds any text; a proof for another server is accepted for infinitely many URLs that no test lists.", "anchors": ["sdk/dpop/url.go:CleanURL", "examples/resourceserver/middleware.go:authenticateWithDPoP", "examples/authorizationserver/handlers/token.go:Token"]}
{"id": "C84", "title": "A verified token has a valid signature", "statement": "Verify of the token verifiers succeeds only if a key verifies the signature of the token. (Expected to fail: Verify parses, and compares at most the algorithm.)", "quantifier": "for every token and parser", "why_tests_cant": "Tests verify tokens that were signed; nothing shows that the signature is never looked at.", "anchors": ["sdk/token/jwt/verifier.go:Verify", "sdk/token/jwt/embedded_verifier.go:Verify"]}
{"id": "C85", "title": "Goroutines sharing a generator get serial answers and none is blocked forever", "statement": "Calls of LockedRand by any number of goroutines are answered as if they were made one after the other, without data races; every goroutine can always go on. (Expected to fail in the second half: a panic keeps the lock, and callbacks of Shuffle cannot use the generator.)", "quantifier": "for every number of goroutines, every adaptive sequence of calls, every interleaving of single memory accesses, and every generator", "why_tests_cant": "Schedules are unbounded; a test with ten goroutines sees a few of them, and the blocked state needs a panic in one of them.", "anchors": ["sdk/randomness/locked_rand.go:LockedRand", "sdk/randomness/global.go:Reader"]}
{"id": "C86", "title": "Serialized tokens say their kind, key and claims, and encryption wraps exactly the signed token", "statement": "Whatever a JWT, PASETO or CWT serializer answers can be verified with the key of its provider and then says the media type of its kind, the key id and exactly the claims; two serializers of one format never answer the same text unless kind, key and claims agree; the encryption decorator answers exactly what the encrypter makes of the signed token and its content type; no serializer panics. (Expected to fail for JWT, whose type has no suffix, and for CWT without key provider, which panics.)", "quantifier": "for every signing library that can be read back, every kind, key provider, claim set and encrypter", "why_tests_cant": "The libraries, keys and claims are unbounded; tests use one key per format and never read back the header type.", "anchors": ["sdk/token/jwt/signer.go:Serialize", "sdk/token/paseto/signer.go:Serialize", "sdk/token/cwt/signer.go:Serialize", "sdk/token/encrypted.go:Serialize"]}
{"id": "C87", "title": "Every history of the HTTP server is a history of the services", "statement": "Whatever HTTP requests arrive at the example server, however they interleave, fail or are abandoned, there is a history of the services behind them with the same stores and the same calls in the same order (middlewares and handlers add only reads of the clock and of client registrations); each service request is exactly what its HTTP request stands for, after client or user authentication; no HTTP request causes more than one service request besides the check of its proof of possession; and every HTTP answer that is not an error conveys the answer of the service. Requests served one after the other are served one after the other by the services.", "quantifier": "for every server configuration, initial store, list of arrivals, interleaving, fault and passage of time", "why_tests_cant": "Interleavings, faults and requests are unbounded; tests call the handlers one at a time with mocked services.", "anchors": ["examples/authorizationserver/main.go:main", "examples/authorizationserver/middleware/client_auth.go:ClientAuthentication", "examples/authorizationserver/handlers/token.go:Token", "examples/authorizationserver/handlers/authorization.go:Authorization", "examples/authorizationserver/handlers/par.go:PushedAuthorizationRequest"]}
{"id": "C88", "title": "Tokens speak for a user only if this user logged in", "statement": "In every history starting with empty stores, any token ever handed to the token store names the issuer of the server and the client that authenticated for it, and names a subject only if a user known to a client by this name had logged in at /authorize before; otherwise the subject is empty and the token descends from a client credentials request. No chain of refreshes and exchanges changes the subject. What /introspect calls active speaks for the same user and client.", "quantifier": "for every history of the services and of the HTTP server, any interleaving and faults, when the hashes of the store keys do not clash", "why_tests_cant": "Chains of grants and interleavings are unbounded; tests look at one grant with prepared sessions.", "anchors": ["server/services/token/service.go:Token", "server/services/token/grant_token_exchange.go", "server/services/token/grant_refresh_token.go", "examples/authorizationserver/handlers/token_introspection.go:TokenIntrospection"]}
{"id": "C89", "title": "The code flow over HTTP", "statement": "Over HTTP, tokens for a code are got only by an authenticated client, with the verifier and the redirect URI that belong to the signed request object of an /authorize request made by the logged-in user at most a minute before, for this user, with no scope beyond the requested one, bound to a key exactly when a proof was sent; each code gets tokens at most once per time it was handed out; and only the client it was handed out for gets them. (Expected to fail for overlapping requests and for the client.)", "quantifier": "for every history of the HTTP server, any faults; single use for requests served one after the other", "why_tests_cant": "The flow spans several requests of several parties; histories are unbounded.", "anchors": ["examples/authorizationserver/handlers/token.go:Token", "examples/authorizationserver/handlers/authorization.go:Authorization", "server/services/token/grant_authorization_code.go"]}
{"id": "C90", "title": "Revocation, proofs of possession and devices over HTTP", "statement": "Over HTTP, once /revoke answered 200 for a token, no later request refreshes it and /introspect never calls it active; one proof of possession is accepted at most once at /token and /par together; and the device flow never completes.", "quantifier": "for every history of the HTTP server; requests one after the other for revocation and proofs, any interleaving for devices", "why_tests_cant": "Histories are unbounded; tests never send a second request after a revocation or a replayed proof through the whole server.", "anchors": ["examples/authorizationserver/handlers/token_revocation.go:TokenRevocation", "examples/authorizationserver/handlers/device_validation.go:Device", "sdk/dpop/verifier.go:Verify"]}
{"id": "C91", "title": "Correct clients get through the whole flow over HTTP", "statement": "After any history of the example server, a user who is logged in and follows a properly signed, well-formed request of a registered client (sent directly or pushed before to /par with a proof of possession) is redirected to the redirect URI of the request with a signed response holding its state and a code; for a minute, whatever else happens except touching this code, the client that presents the code with the redirect URI and the verifier at /token gets an access token (bound to its key if it proved one) and, with consent, a refresh token; for an hour, whatever else happens except touching this token, introspection says that it is active and names the user, the client, the scope, the audience and the key. For its lifetime, whatever else happens except touching it, the refresh token yields an access token that works in the same way for the same user, client, scope, audience and key; the refresh token is kept if it outlives the access token, and otherwise replaced by one for another week and revoked. Confidential clients get a working token of their own by client_credentials. A revoked token is reported as not active and refused for refresh, whatever else happens except storing another one with its value.", "quantifier": "for every server configuration with a usable issuer, every history before, between and after the steps, every registered client and well-formed request; the requests themselves served without faults", "why_tests_cant": "Liveness over unbounded histories with other parties in between: tests run single handlers against mocks that say what the next step expects.", "anchors": ["examples/authorizationserver/handlers/authorization.go:Authorization", "examples/authorizationserver/handlers/token.go:Token", "examples/authorizationserver/handlers/token_introspection.go:TokenIntrospection", "examples/authorizationserver/handlers/par.go:PushedAuthorizationRequest", "server/services/authorization/service.go:Authorize", "server/services/token/grant_authorization_code.go", "server/services/token/grant_refresh_token.go", "server/services/token/grant_client_credentials.go", "examples/authorizationserver/handlers/token_revocation.go:TokenRevocation"]}
{"id": "C92", "title": "Refused token requests are told the prescribed error code", "statement": "A token request is refused exactly when one of the following reasons is there: a missing or wrong parameter, an unusable issuer, no or an unknown client, an unknown or missing grant, a client that may not use the grant, an unknown or mismatching code, an unknown, foreign, expired, pending or otherwise unusable device code, an unusable refresh or subject token, an unknown audience, or a failing store or generator. The answer carries the error code that RFC 6749 section 5.2, RFC 8628 section 3.5 and RFC 8693 section 2.2.2 prescribe for a reason that is there; failures of the server are told as server_error.", "quantifier": "for every token request and every behaviour of the stores, the generators and the clock", "why_tests_cant": "The codes of all reasons, alone and together, over all answers of the stores; the tests compare single answers with codes that were copied from the code.", "anchors": ["server/services/token/service.go:Token", "server/services/token/validator.go:validateRequest", "server/services/token/grant_authorization_code.go", "server/services/token/grant_client_credentials.go", "server/services/token/grant_device_code.go", "server/services/token/grant_refresh_token.go", "server/services/token/grant_token_exchange.go", "sdk/rfcerrors/errors.go"]}
{"id": "C93", "title": "Refused authorization requests are told the prescribed error code", "statement": "An authorization request, a pushed authorization request and a device authorization request are refused exactly when one of the following faults is there: no request, issuer, user or client, an unknown or nested pushed request or one of another client, a missing or disallowed parameter, an unknown response type, an unknown client or one that may not use the grant, the response type, the redirect URI or the response mode, or a failing store or generator. The answer carries the error code that RFC 6749 section 4.1.2.1, RFC 9126 section 2.3 and RFC 8628 section 3.2 prescribe for a fault that is there, and the state of the request, and errors of requests with a registered redirect URI are sent there.", "quantifier": "for every authorization, pushed authorization and device authorization request and every behaviour of the stores and the generators", "why_tests_cant": "The codes and the states of all faults, alone and together, over all answers of the stores; the tests compare single answers with codes that were copied from the code.", "anchors": ["server/services/authorization/service.go:Authorize", "server/services/authorization/service.go:Register", "server/services/authorization/service.go:validate", "server/services/device/service.go:Authorize", "examples/authorizationserver/handlers/authorization.go", "sdk/rfcerrors/errors.go"]}
{"id": "C94", "title": "The browser is sent to the redirect URI and nowhere else", "statement": "The Location of an authorization answer has the scheme, the user information, the host, the port and the path of the redirect URI, up to percent-encoding and the letter case of the scheme; its query retains the query of the redirect URI and adds the parameters of the response, which the client reads back with the values that were sent; it has no fragment, unless the response is sent in the fragment; the form of the form_post mode is sent to the same parts of the redirect URI; and the Location consists of printable ASCII characters only, whatever the redirect URI and the parameters, so that no header can be injected; nothing that a parameter holds is written as a delimiter of the URI. Only absolute redirect URIs without fragment are accepted.", "quantifier": "for every redirect URI, every list of response parameters and every request path", "why_tests_cant": "Printing after parsing is where URL libraries disagree with browsers: the inputs that matter are escapes, quotes, empty parts and control bytes in every position, infinitely many; the tests use one well-formed URI.", "anchors": ["examples/authorizationserver/handlers/authorization.go:responseTypeCode", "examples/authorizationserver/handlers/authorization.go:responseTypeQueryJWT", "examples/authorizationserver/handlers/authorization.go:responseTypeFragmentJWT", "examples/authorizationserver/handlers/authorization.go:responseTypeFormPostJWT", "server/services/authorization/service.go:validate"]}
{"id": "C95", "title": "A DPoP proof is valid for the URI that is called and for no other", "statement": "With net/url as it is: a proof that a server accepts names, in htu, a URI without query whose call the request at hand is, with the same scheme, host and path after percent-decoding (RFC 9449 section 4.3); and the proof that the SDK's prover makes for a URI is accepted when this URI is called.", "quantifier": "for every URI, every request, every behaviour of the proof cache and every clock", "why_tests_cant": "Decoding and printing happen four times between the two ends (prover, client library, server library, verifier); whether they cancel depends on every byte of the path. The tests use /token.", "anchors": ["sdk/dpop/prover.go:Prove", "sdk/dpop/verifier.go:Verify", "sdk/dpop/url.go:CleanURL", "examples/resourceserver/middleware.go", "examples/authorizationserver/handlers/token.go"]}
{"id": "C96", "title": "Answers carry the status and the headers that HTTP and OAuth prescribe", "statement": "Every answer of the endpoints: an accepted request is answered with the success status and body of its endpoint and a refused one with an error status, never the reverse; every 401 has a challenge, from which the host and the error can be read back whatever the host holds; what clients parse is declared as JSON; everything sent to the logged-in user has the security headers; only an authorization redirects, to the registered redirect URI, where the client reads the signed response; no header holds a control character; every field appears once, under a name in the form net/http writes, and none sets a cookie or opens the answer to other origins; answers with tokens are not stored by caches (RFC 6749 section 5.1).", "quantifier": "for every request, every behaviour of the stores and every host that the request names", "why_tests_cant": "The headers are set in four layers (two adapters whose order is the reverse of their listing, two helpers, the handlers, net/http), each path through the handlers writing a different subset; the tests look at statuses and bodies of chosen requests.", "anchors": ["examples/authorizationserver/main.go", "examples/authorizationserver/middleware/secure_headers.go:SecurityHaders", "examples/authorizationserver/middleware/basic_auth.go:BasicAuthentication", "examples/authorizationserver/middleware/adapter.go:Adapt", "examples/authorizationserver/respond/helpers.go:WithError", "examples/authorizationserver/handlers/authorization.go"]}
{"id": "C97", "title": "The endpoints read requests as the texts that were sent stand for", "statement": "Every text conforming to application/x-www-form-urlencoded (any program may have written it: any choice of escapes and letter cases) stands for one list of parameters, and the endpoints read exactly these values, those of the body before those of the URL; a body that is not a form, or that comes with a method that has none, is not read; what the client library writes is such a text and is read as the requests of C73 and C75; the login is granted to exactly the RFC 7617 credentials, the scheme in any letter case; requests with repeated or malformed parameters, with credentials in the URL or with a method the standards do not allow are refused.", "quantifier": "for every request as bytes: method, URL query, content type, body and Authorization header, and every behaviour of the stores", "why_tests_cant": "The space of encodings of one request is infinite and the Go encoder used by the tests produces one of them; what the standard library drops silently (repeated parameters, malformed pairs) is not visible in a test that sends well-formed forms.", "anchors": ["examples/authorizationserver/handlers/token.go:Token", "examples/authorizationserver/handlers/token_introspection.go:TokenIntrospection", "examples/authorizationserver/handlers/token_revocation.go:TokenRevocation", "examples/authorizationserver/middleware/basic_auth.go:BasicAuthentication", "client/http.go:ClientCredentials", "client/http.go:Introspect"]}
{"id": "C98", "title": "Generated codes and tokens cannot be guessed", "statement": "From uniformly random bytes, every alphanumeric string of 32 characters is equally likely to be the next authorization code, device code or request URI, no guess of a code succeeds with a chance above 2^-190 and no guess of an opaque token above 2^-184 (RFC 6749 section 10.10 demands 2^-128 and recommends 2^-160); user codes are uniform; identifiers of DPoP proofs have the 96 bits of RFC 9449 section 4.2.", "quantifier": "for every number of random bytes, every guess and every sizing of the buffers the bytes are read into", "why_tests_cant": "The chance that a guess succeeds is far below anything a test can sample, and a modulo bias or a shortened alphabet leaves every sample looking random.", "anchors": ["sdk/generator/authorization_code.go:Generate", "sdk/generator/device_code.go:Generate", "sdk/generator/device_user_code.go:Generate", "sdk/generator/request_uri.go:Generate", "sdk/token/token.go:Generate", "sdk/dpop/prover.go:Prove", "server/services/token/generator.go:generateAccessToken"]}
{"id": "C99", "title": "Refused client authentications are told the prescribed error code", "statement": "A client that presents a signed assertion is refused exactly when the assertion is missing, malformed, incomplete, expired, of an unknown client, of a client without usable keys, wrongly signed, or the store fails, and it is told the code RFC 6749 section 5.2 and RFC 7521 section 4.2.1 prescribe for the reason; a client that presents an attestation likewise; over HTTP every refusal has status 401 and the code invalid_client.", "quantifier": "for every request, every parser of assertions and every behaviour of the client store and the clock", "why_tests_cant": "The code depends on the first of many checks that fails, and tests look at whether a client is refused and not at all combinations of reasons.", "anchors": ["server/clientauthentication/private_key_jwt.go:Authenticate", "server/clientauthentication/client_attestation.go:Authenticate", "server/clientauthentication/client_attestation.go:validateClientAttestation", "examples/authorizationserver/middleware/client_auth.go:ClientAuthentication"]}
{"id": "C100", "title": "The resource server tells whom it refuses why, and how to do better", "statement": "Every request the resource server refuses is answered with the status its reason calls for: 401 without credentials, without an acceptable token, or after an authentication that is too old or of another level, 400 for an unknown scheme, 403 without permission. Every 401 carries one well-formed challenge (RFC 9110 section 11) that names the error, and in the last two cases the age or the levels that are wanted (RFC 9470). Every refusal is declared as plain text that is not to be taken for anything else.", "quantifier": "for every request, every answer of introspection, every outcome of proof verification and every demanded age and level", "why_tests_cant": "Tests compare one header text; whether the text parses, and parses in one way, for all demanded levels and ages, needs the grammar.", "anchors": ["examples/resourceserver/middleware.go:Authorizer", "examples/authorizationserver/respond/helpers.go:WithError"]}
{"id": "C101", "title": "Signed timestamps are given to permitted requests, verify, and say one thing", "statement": "The resource server signs the time only for requests its middleware lets through; the answer carries the clock's time after that check, names the server, and is accepted by every reader who knows the key; if only the server's signatures verify, then every document readers accept names the server and a time and nonce it signed.", "quantifier": "for every request, every clock and nonce, every correct signature scheme and every history of signatures", "why_tests_cant": "That no other document verifies is a statement about all documents; the payload is a concatenation without marks, and tests do not search for two readings of it.", "anchors": ["examples/resourceserver/main.go:ResourceHandler", "examples/resourceserver/main.go:ResourceMetadata", "examples/resourceserver/main.go:main"]}
{"id": "C102", "title": "What no request names influences no answer and stays as it is", "statement": "Let a part of the stores (codes, pushed requests, user and device codes, sessions, tokens) be such that nothing outside of it points to it. While no request presents a name of the part and no generator repeats one, servers whose stores differ only within the part treat every request alike and give the same answers, and everything in the part stays as it is. In particular nobody consumes an authorization code, or revokes or changes a token, without presenting it.", "quantifier": "for all parts of the stores, all pairs of stores, all requests to services or HTTP endpoints, all interleavings, faults and passing of time", "why_tests_cant": "Noninterference compares pairs of executions that differ in what is not observed; tests compare single executions with expected answers, and cannot cover all secrets, all other requests and all interleavings.", "anchors": ["server/services/token/service.go:Token", "server/services/token/revoke.go:Revoke", "server/services/device/service.go:Validate", "server/services/authorization/service.go:Authorize", "server/storage/inmemory/token.go:Revoke", "server/storage/inmemory/device_code_session.go:Validate", "server/storage/inmemory/authorization_code_session.go:deriveKey"]}
{"id": "C103", "title": "The binary encoding is the one the .proto files define", "statement": "For every message of the modelled types the generated encoder writes, without a crash, exactly the proto3 encoding of the message by its .proto definition: the defined field numbers and types in ascending order, lengths and numbers in base 128, negative enumeration numbers in ten bytes, nothing for default values of fields without presence, nested and repeated messages and maps as defined, then the unknown fields. So any other protobuf implementation reads what was stored or sent.", "quantifier": "for every value of the 39 message types", "why_tests_cant": "The encoders are thousands of generated lines; round-trip tests hold for any consistent but wrong numbering or encoding, and no test covers all field values.", "anchors": ["proto/oidc/token/v1/token.proto", "proto/oidc/client/v1/client.proto", "proto/oidc/flow/v1/flow.proto", "proto/oidc/flow/v1/flow_api.proto", "proto/oidc/session/v1/session.proto", "api/oidc/token/v1/token_vtproto.pb.go:MarshalToSizedBufferVT", "api/oidc/session/v1/session_vtproto.pb.go:MarshalToSizedBufferVT"]}
{"id": "C104", "title": "What the resource server lets through was granted by the authorization server", "statement": "With a client that reports what /introspect answered, the example resource server hands a request on only if it presents a token that the authorization server called active within its validity, that was created there for a client_credentials request of one of the permitted, authenticated, secret-keeping clients, and that is either unbound and used as a bearer token or bound to the key whose proof came with the request for the token and comes with the request for the resource. Once /revoke has answered 200 for a token, no request presenting it is handed on.", "quantifier": "for every history of the authorization server over HTTP (any interleaving and failures; one after the other for revocation), every resource request and every such client", "why_tests_cant": "Spans two servers, all histories of one of them and every request to the other; tests run one happy path.", "anchors": ["examples/resourceserver/middleware.go:Authorizer", "server/services/token/introspection.go", "examples/authorizationserver/handlers/token_introspection.go", "examples/authorizationserver/handlers/token.go", "examples/authorizationserver/handlers/token_revocation.go"]}
{"id": "C105", "title": "What the example server does with the clients it ships with", "statement": "Started with the clients of the in-memory storage, the example authorization server creates tokens only for the web application 6779ef20e75817b79602 on behalf of the logged-in user (under the pseudonym all its clients share, or under the plain name if the request was signed by the attestation server), and, without a subject and for the grant client_credentials, for four clients; the test client t8p9duw4n2klximkv3kagaud796ul67g only gets tokens bound to the key of the proof it sent. The public client and the attestation server never get tokens. Codes are for the response type code and go, signed in the query, to the one registered redirect URI up to letter case. The attested client authenticates only with an attestation signed by a client that has keys. Behind the example resource server bearer tokens are those of the attested client. Without an assertion a request is one of the public client or of the attestation server, and anybody may ask about tokens by naming one of them.", "quantifier": "for every history over HTTP from empty stores with the shipped clients, any interleaving and any failures, for every environment in which empty text is no key set", "why_tests_cant": "A closed-world statement about a configuration and all histories from it; tests can only try some clients and some orders.", "anchors": ["server/storage/inmemory/client.go:Clients", "examples/authorizationserver/main.go", "examples/authorizationserver/handlers/token.go", "examples/authorizationserver/handlers/authorization.go", "examples/resourceserver/middleware.go:Authorizer"]}
{"id": "C106", "title": "The JSON answers say what was decided", "statement": "Every JSON answer of the example server (tokens, introspection, device authorization, pushed request, error, metadata) is a JSON text in the sense of RFC 8259 that says exactly the members the specifications define, with optional members only where they have a value; a JSON text says one thing only, so two different answers never have the same text; and no answer contains a character of HTML markup.", "quantifier": "for every answer with any bytes in its strings and every build of the JSON library", "why_tests_cant": "The texts are made by two libraries with different escaping rules, one of which varies between builds; tests compare a few decoded bodies and never those with invalid UTF-8.", "anchors": ["examples/authorizationserver/respond/helpers.go:WithError", "examples/authorizationserver/respond/helpers.go:WithJSON", "examples/authorizationserver/handlers/token.go:response", "examples/authorizationserver/handlers/token_introspection.go:TokenIntrospection", "examples/authorizationserver/handlers/device_authorization.go", "examples/authorizationserver/handlers/par.go", "api/oidc/core/v1/error.pb.json.go:MarshalJSON"]}
{"id": "C107", "title": "Published and registered keys are the public halves of the keys that sign", "statement": "The key set the example authorization server publishes is a JSON text that says the members RFC 7517 and RFC 7518 define for the public half of its signing key, and nothing that makes a key private; the answer is the same for any two keys with the same public half; whoever reads it by RFC 8259 gets the public half, and with it everything the server signs verifies. The signing key, and the keys of the example resource server and the example device client, are pairs on P-384, and the latter two are registered for these clients by their public halves only, under the clients' names. No two servers or clients share a key.", "quantifier": "for every key, every reader of JSON texts, every build of the JSON library, every signed claim", "why_tests_cant": "Secrecy of a value in an answer is a statement about all keys; that a key read back verifies all signatures spans encoder, decoder and verifier.", "anchors": ["examples/authorizationserver/settings.go:keyProvider", "examples/authorizationserver/settings.go:keySetProvider", "examples/authorizationserver/handlers/jwks.go:JWKS", "server/storage/inmemory/client.go:Clients", "examples/resourceserver/main.go", "examples/deviceclient/main.go", "examples/attestationserver/main.go"]}
{"id": "C108", "title": "Encodings that follow each other are read as one message", "statement": "For every message type: an input that starts with something the decoder accepts is read by reading that and then the rest into the result. So what two encoders wrote, one after the other, is the first message with the second merged into it, as protobuf defines: single fields of the later one win, lists, maps, unknown fields and nested messages are joined.", "quantifier": "for every message type, message and byte string", "why_tests_cant": "A law over all splits of all inputs of thousands of generated lines that keep an index into the whole buffer.", "anchors": ["api/oidc/token/v1/token_vtproto.pb.go:UnmarshalVT", "api/oidc/client/v1/client_vtproto.pb.go:UnmarshalVT", "api/oidc/flow/v1/flow_api_vtproto.pb.go:UnmarshalVT", "api/oidc/session/v1/session_vtproto.pb.go:UnmarshalVT"]}
{"id": "C109", "title": "Clients within the strict profile do only what it provides for", "statement": "If every client is registered within the strict profile for its type of application (server/profile), then in every history of the example server, starting with empty stores, tokens on behalf of users are created only for web and native applications, by code, and for native ones by refresh; tokens without subject only for services, by client_credentials; devices get none; codes are stored for web and native applications and the response type code only, device sessions for devices only. Clients authenticate by the method the profile provides for, private_key_jwt; and the clients of the in-memory storage keep to the profile.", "quantifier": "for every set of clients within the profile and every history of HTTP requests, with any interleaving and any failures", "why_tests_cant": "The profile is data that no code consults; that the endpoints respect it is a fact about all registrations and all histories.", "anchors": ["server/profile/profile_strict.go:Strict", "server/profile/client.go:defaultClientProfile", "server/profile/server.go:ApplicationType", "server/storage/inmemory/client.go:Clients"]}
{"id": "C110", "title": "Tokens made from a token end with it", "statement": "A token that is made by refreshing or exchanging another one has its subject, issuer and key binding; it is made only if that one was looked up before it was revoked and the clock was read before it expired; and it is of no use after that one expired or was revoked.", "quantifier": "for every history of service requests with any interleaving, and chains of exchanges of any length", "why_tests_cant": "How long access can be kept is a fact about chains of requests of any length, in any history.", "anchors": ["server/services/token/grant_token_exchange.go:tokenExchange", "server/services/token/grant_refresh_token.go:refreshToken", "server/services/token/service.go:Revoke", "server/storage/inmemory/token.go:Revoke", "server/storage/inmemory/resource.go:GetByURI"]}
{"id": "C111", "title": "Registered clients are found again", "statement": "A registered client is found under the identifier that Register returned, as it was given but for that identifier, whatever else is registered; identifiers have 16 letters and digits, so no registration touches the clients with which the storage starts; the client found under an identifier has that identifier; and GetByName returns the client with that name, up to letter case, and fails only if there is none.", "quantifier": "for every sequence of registrations with any random bytes, and every order in which Go enumerates the map", "why_tests_cant": "Go randomises the enumeration of maps and the identifiers are random; the claim is about all sequences of registrations.", "anchors": ["server/storage/inmemory/client.go:Get", "server/storage/inmemory/client.go:GetByName", "server/storage/inmemory/client.go:Register"]}
{"id": "C112", "title": "Decoders know exactly the fields of their schema", "statement": "The decoder of every stored or transmitted message refuses a record whose number is a field of the message in its .proto file but whose wire type is not the one of that field, keeps a record whose number is no field byte for byte among the unknown fields and changes nothing else, and refuses the wire types that do not exist, the number 0 and a lone end of group; wherever the record stands among valid ones.", "quantifier": "for all 39 messages, all field numbers below 2^29, all wire types, all payloads and all messages around the record", "why_tests_cant": "The fields, their numbers and types are listed twice, in the .proto files and in 39 generated decoders; tests write messages with the encoder and never with another type or number.", "anchors": ["proto/oidc/token/v1/token.proto", "proto/oidc/client/v1/client.proto", "proto/oidc/flow/v1/flow_api.proto", "api/oidc/flow/v1/flow_api_vtproto.pb.go:UnmarshalVT", "api/oidc/token/v1/token_vtproto.pb.go:UnmarshalVT", "api/oidc/client/v1/client_vtproto.pb.go:UnmarshalVT"]}
{"id": "C113", "title": "Reading into a message merges as protobuf defines", "statement": "For every message type and any two messages m and x: the encoding of x, read into m, gives m with x merged into it. Merging is defined field by field from the message definitions: a set single value of x wins, lists and unknown fields are appended, a map takes the value x has for a key, nested messages are merged, a member of a oneof is merged with the same member and replaces another. So two encodings one behind the other are read as the second merged into the first.", "quantifier": "for all 39 message types and all messages m and x", "why_tests_cant": "Thousands of generated lines of which tests read only into empty messages; what happens to a field that is already set depends on both messages.", "anchors": ["api/oidc/token/v1/token_vtproto.pb.go:UnmarshalVT", "api/oidc/client/v1/client_vtproto.pb.go:UnmarshalVT", "api/oidc/flow/v1/flow_api_vtproto.pb.go:UnmarshalVT", "api/oidc/session/v1/session_vtproto.pb.go:UnmarshalVT"]}
{"id": "C114", "title": "The hash functions in use have the lengths relied on, and their collisions are the only lost distinctions", "statement": "With SHA-256, HMAC, HKDF and BLAKE2b as the code uses them: digests and tags have 32 bytes, so PKCE pairs of the library are accepted and a verifiable token of any type is generated and extracted as its identifier; the keys of the stores are short enough for keyed BLAKE2b, so no store crashes; a storage key has 64 hexadecimal digits, and two objects of one kind share it exactly when their digests are equal; pairwise subjects have 43 characters. Collisions exist: two names of each kind under every issuer, two proof identifiers and two subjects of every sector that cannot be told apart.", "quantifier": "for all inputs, keys, secrets, identifiers, nonces, issuers, names, salts of 16 to 64 bytes, sectors and subjects", "why_tests_cant": "Lengths hold for all of infinitely many inputs, and no test can exhibit a collision.", "anchors": ["server/storage/inmemory/authorization_code_session.go:deriveKey", "server/storage/inmemory/authorization_request.go:deriveKey", "server/storage/inmemory/device_code_session.go:deriveUserCode", "server/storage/inmemory/token.go:deriveValue", "sdk/token/verifiable/uuid.go:Generate", "sdk/pairwise/hash.go:Encode", "sdk/dpop/verifier.go:validateProofClaims"]}
{"id": "C115", "title": "Calls on the token store take effect in one step", "statement": "The in-memory token store keeps two indices of pointers to shared objects, and its calls touch them one after the other without a lock around them. Whatever the order in which goroutines access the indices and the objects, everything they can see could also be seen if every call took effect in one step between its call and its return; in particular a lookup called after a revocation has returned finds the token revoked. This holds for callers that create tokens with different identifiers and keys, look tokens up by value, and revoke only tokens they found; the services are such callers. It does not hold for lookups by identifier, which nothing makes.", "quantifier": "for any number of goroutines and calls, any interleaving of the accesses, any tokens, issuers and hash functions", "why_tests_cant": "The interleavings of accesses are unbounded in number and cannot be controlled by a test; the race detector sees only the executions that happen.", "anchors": ["server/storage/inmemory/token.go:Create", "server/storage/inmemory/token.go:GetByValue", "server/storage/inmemory/token.go:Revoke", "server/storage/inmemory/token.go:Get"]}
