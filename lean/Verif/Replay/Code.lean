import Verif.Replay.Basic

/-! The tests of the authorization code and client credentials grants, replayed on the model (see `Verif.Replay.Basic`). -/
namespace Verif.Replay

/-! ### `Test_service_authorizationCode` (server/services/token/grant_authorization_code_test.go) -/

-- line 66: nil client
example :
    runs 0
      (TokenSvc.dispatch env0 none
        { issuer := [], client := none, grantType := Oidc.grantAuthorizationCode }) [] anon
      { error := (some ⟨.serverError, none⟩), goErr := true } := by decide +kernel

-- line 78: nil grant
example :
    runs 0
      (TokenSvc.dispatch env0 (some { clientId := [] })
        { issuer := g!"http://127.0.0.1:8080", grantType := Oidc.grantAuthorizationCode,
          client := none }) [] anon
      { error := (some ⟨.serverError, none⟩), goErr := true } := by decide +kernel

-- line 93: missing issuer
example :
    runs 0
      (TokenSvc.dispatch env0 (some { clientId := [] })
        { issuer := [], client := (some { clientId := [] }),
          grantType := Oidc.grantAuthorizationCode,
          grant := (some
                     (.authorizationCode
                       { code := [], codeVerifier := [], redirectUri := [] })) }) [] anon
      { error := (some ⟨.serverError, none⟩), goErr := true } := by decide +kernel

-- line 112: invalid issuer
example :
    runs 0
      (TokenSvc.dispatch env0 (some { clientId := [] })
        { issuer := g!"foo", client := (some { clientId := [] }),
          grantType := Oidc.grantAuthorizationCode,
          grant := (some
                     (.authorizationCode
                       { code := [], codeVerifier := [], redirectUri := [] })) }) [] anon
      { error := (some ⟨.serverError, none⟩), goErr := true } := by decide +kernel

-- line 131: client not support grant_type
example :
    runs 0
      (TokenSvc.dispatch env0
        (some
          { grantTypes := [g!"client_credentials"], responseTypes := [g!"code"],
            redirectUris := [g!"https://client.example.org/cb"], clientId := [] })
        { issuer := g!"http://127.0.0.1:8080", client := (some { clientId := g!"s6BhdRkqt3" }),
          grantType := Oidc.grantAuthorizationCode,
          grant := (some
                     (.authorizationCode
                       { code := [],
                         codeVerifier := g!"dBjftJeZ4CVP-mB92K27uhbUJU1p1r_wW1gFWFOEjXk",
                         redirectUri := g!"https://client.example.org/cb" })) }) [] anon
      { error := (some ⟨.unsupportedGrantType, none⟩), goErr := true } := by decide +kernel

-- line 159: missing code
example :
    runs 0
      (TokenSvc.dispatch env0
        (some
          { grantTypes := [g!"authorization_code"], responseTypes := [g!"code"],
            redirectUris := [g!"https://client.example.org/cb"], clientId := [] })
        { issuer := g!"http://127.0.0.1:8080", client := (some { clientId := g!"s6BhdRkqt3" }),
          grantType := Oidc.grantAuthorizationCode,
          grant := (some
                     (.authorizationCode
                       { code := [],
                         codeVerifier := g!"dBjftJeZ4CVP-mB92K27uhbUJU1p1r_wW1gFWFOEjXk",
                         redirectUri := g!"https://client.example.org/cb" })) }) [] anon
      { error := (some ⟨.invalidGrant, none⟩), goErr := true } := by decide +kernel

-- line 187: code too long
example :
    runs 0
      (TokenSvc.dispatch env0
        (some
          { grantTypes := [g!"authorization_code"], responseTypes := [g!"code"],
            redirectUris := [g!"https://client.example.org/cb"], clientId := [] })
        { issuer := g!"http://127.0.0.1:8080", client := (some { clientId := g!"s6BhdRkqt3" }),
          grantType := Oidc.grantAuthorizationCode,
          grant := (some
                     (.authorizationCode
                       { code := (List.replicate 1025 97),
                         codeVerifier := g!"dBjftJeZ4CVP-mB92K27uhbUJU1p1r_wW1gFWFOEjXk",
                         redirectUri := g!"https://client.example.org/cb" })) }) [] anon
      { error := (some ⟨.invalidGrant, none⟩), goErr := true } := by decide +kernel

-- line 216: missing code_verifier
example :
    runs 0
      (TokenSvc.dispatch env0
        (some
          { grantTypes := [g!"authorization_code"], responseTypes := [g!"code"],
            redirectUris := [g!"https://client.example.org/cb"], clientId := [] })
        { issuer := g!"http://127.0.0.1:8080", client := (some { clientId := g!"s6BhdRkqt3" }),
          grantType := Oidc.grantAuthorizationCode,
          grant := (some
                     (.authorizationCode
                       { code := g!"1234567891234567890", codeVerifier := [],
                         redirectUri := g!"https://client.example.org/cb" })) }) [] anon
      { error := (some ⟨.invalidGrant, none⟩), goErr := true } := by decide +kernel

-- line 244: code_verifier too short
example :
    runs 0
      (TokenSvc.dispatch env0
        (some
          { grantTypes := [g!"authorization_code"], responseTypes := [g!"code"],
            redirectUris := [g!"https://client.example.org/cb"], clientId := [] })
        { issuer := g!"http://127.0.0.1:8080", client := (some { clientId := g!"s6BhdRkqt3" }),
          grantType := Oidc.grantAuthorizationCode,
          grant := (some
                     (.authorizationCode
                       { code := g!"1234567891234567890", codeVerifier := g!"foo",
                         redirectUri := g!"https://client.example.org/cb" })) }) [] anon
      { error := (some ⟨.invalidGrant, none⟩), goErr := true } := by decide +kernel

-- line 273: code_verifier too short
example :
    runs 0
      (TokenSvc.dispatch env0
        (some
          { grantTypes := [g!"authorization_code"], responseTypes := [g!"code"],
            redirectUris := [g!"https://client.example.org/cb"], clientId := [] })
        { issuer := g!"http://127.0.0.1:8080", client := (some { clientId := g!"s6BhdRkqt3" }),
          grantType := Oidc.grantAuthorizationCode,
          grant := (some
                     (.authorizationCode
                       { code := g!"1234567891234567890",
                         codeVerifier := g!"aaaaaaaaaaaaaaaaaaaaaaaaaaaaaaaaaaaaaaaaaaaaaaaaaaaaaaaaaaaaaaaaaaaaaaaaaaaaaaaaaaaaaaaaaaaaaaaaaaaaaaaaaaaaaaaaaaaaaaaaaaaaaaaaa",
                         redirectUri := g!"https://client.example.org/cb" })) }) [] anon
      { error := (some ⟨.invalidGrant, none⟩), goErr := true } := by decide +kernel

-- line 302: missing redirect_uri
example :
    runs 0
      (TokenSvc.dispatch env0
        (some
          { grantTypes := [g!"authorization_code"], responseTypes := [g!"code"],
            redirectUris := [g!"https://client.example.org/cb"], clientId := [] })
        { issuer := g!"http://127.0.0.1:8080", client := (some { clientId := g!"s6BhdRkqt3" }),
          grantType := Oidc.grantAuthorizationCode,
          grant := (some
                     (.authorizationCode
                       { code := g!"1234567891234567890",
                         codeVerifier := g!"dBjftJeZ4CVP-mB92K27uhbUJU1p1r_wW1gFWFOEjXk",
                         redirectUri := [] })) }) [] anon
      { error := (some ⟨.invalidGrant, none⟩), goErr := true } := by decide +kernel

-- line 330: authorization request not found
example :
    runs 0
      (TokenSvc.dispatch env0
        (some
          { grantTypes := [g!"authorization_code"], responseTypes := [g!"code"],
            redirectUris := [g!"https://client.example.org/cb"], clientId := [] })
        { issuer := g!"http://127.0.0.1:8080", client := (some { clientId := g!"s6BhdRkqt3" }),
          grantType := Oidc.grantAuthorizationCode,
          grant := (some
                     (.authorizationCode
                       { code := g!"1234567891234567890",
                         codeVerifier := g!"dBjftJeZ4CVP-mB92K27uhbUJU1p1r_wW1gFWFOEjXk",
                         redirectUri := g!"https://client.example.org/cb" })) })
      [.csGet g!"http://127.0.0.1:8080" g!"1234567891234567890" (.error .notFound)] anon
      { error := (some ⟨.invalidGrant, none⟩), goErr := true } := by decide +kernel

-- line 362: authorization request storage error
example :
    runs 0
      (TokenSvc.dispatch env0
        (some
          { grantTypes := [g!"authorization_code"], responseTypes := [g!"code"],
            redirectUris := [g!"https://client.example.org/cb"], clientId := [] })
        { issuer := g!"http://127.0.0.1:8080", client := (some { clientId := g!"s6BhdRkqt3" }),
          grantType := Oidc.grantAuthorizationCode,
          grant := (some
                     (.authorizationCode
                       { code := g!"1234567891234567890",
                         codeVerifier := g!"dBjftJeZ4CVP-mB92K27uhbUJU1p1r_wW1gFWFOEjXk",
                         redirectUri := g!"https://client.example.org/cb" })) })
      [.csGet g!"http://127.0.0.1:8080" g!"1234567891234567890" (.error .other)] anon
      { error := (some ⟨.serverError, none⟩), goErr := true } := by decide +kernel

-- line 394: nil authorization request
example :
    runs 0
      (TokenSvc.dispatch env0
        (some
          { grantTypes := [g!"authorization_code"], responseTypes := [g!"code"],
            redirectUris := [g!"https://client.example.org/cb"], clientId := [] })
        { issuer := g!"http://127.0.0.1:8080", client := (some { clientId := g!"s6BhdRkqt3" }),
          grantType := Oidc.grantAuthorizationCode,
          grant := (some
                     (.authorizationCode
                       { code := g!"1234567891234567890",
                         codeVerifier := g!"dBjftJeZ4CVP-mB92K27uhbUJU1p1r_wW1gFWFOEjXk",
                         redirectUri := g!"https://client.example.org/cb12346" })) })
      [.csGet g!"http://127.0.0.1:8080" g!"1234567891234567890"
         (.ok (some { request := none, issuer := [], subject := [] }))] anon
      { error := (some ⟨.invalidGrant, none⟩), goErr := true } := by decide +kernel

-- line 428: session deletion error
example :
    runs 0
      (TokenSvc.dispatch env0
        (some
          { grantTypes := [g!"authorization_code"], responseTypes := [g!"code"],
            redirectUris := [g!"https://client.example.org/cb"], clientId := [] })
        { issuer := g!"http://127.0.0.1:8080", client := (some { clientId := g!"s6BhdRkqt3" }),
          grantType := Oidc.grantAuthorizationCode,
          grant := (some
                     (.authorizationCode
                       { code := g!"1234567891234567890",
                         codeVerifier := g!"dBjftJeZ4CVP-mB92K27uhbUJU1p1r_wW1gFWFOEjXk",
                         redirectUri := g!"https://client.example.org/cb12346" })) })
      [.csGet g!"http://127.0.0.1:8080" g!"1234567891234567890"
         (.ok
           (some
             { request := (some
                            { audience := g!"mDuGcLjmamjNpLmYZMLIshFcXUDCNDcH",
                              responseType := g!"code", scope := g!"openid profile email",
                              clientId := g!"s6BhdRkqt3", state := g!"af0ifjsldkj",
                              redirectUri := g!"https://client.example.org/cb",
                              codeChallenge := g!"E9Melhoa2OwvFrEMTJguCHaoeK1t8URWbuGJSstw-cM",
                              codeChallengeMethod := g!"S256" }), issuer := [], subject := [] })),
       .csDel g!"http://127.0.0.1:8080" g!"1234567891234567890" (.error .other)] anon
      { error := (some ⟨.serverError, none⟩), goErr := true } := by decide +kernel

-- line 472: redirect_uri mismatch
example :
    runs 0
      (TokenSvc.dispatch env0
        (some
          { grantTypes := [g!"authorization_code"], responseTypes := [g!"code"],
            redirectUris := [g!"https://client.example.org/cb"], clientId := [] })
        { issuer := g!"http://127.0.0.1:8080", client := (some { clientId := g!"s6BhdRkqt3" }),
          grantType := Oidc.grantAuthorizationCode,
          grant := (some
                     (.authorizationCode
                       { code := g!"1234567891234567890",
                         codeVerifier := g!"dBjftJeZ4CVP-mB92K27uhbUJU1p1r_wW1gFWFOEjXk",
                         redirectUri := g!"https://client.example.org/cb12346" })) })
      [.csGet g!"http://127.0.0.1:8080" g!"1234567891234567890"
         (.ok
           (some
             { request := (some
                            { audience := g!"mDuGcLjmamjNpLmYZMLIshFcXUDCNDcH",
                              responseType := g!"code", scope := g!"openid profile email",
                              clientId := g!"s6BhdRkqt3", state := g!"af0ifjsldkj",
                              redirectUri := g!"https://client.example.org/cb",
                              codeChallenge := g!"E9Melhoa2OwvFrEMTJguCHaoeK1t8URWbuGJSstw-cM",
                              codeChallengeMethod := g!"S256" }), issuer := [], subject := [] })),
       .csDel g!"http://127.0.0.1:8080" g!"1234567891234567890" (.ok ())] anon
      { error := (some ⟨.invalidGrant, some g!"af0ifjsldkj"⟩), goErr := true } := by decide +kernel

-- line 516: redirect_uri mismatch: client changes between request
example :
    runs 0
      (TokenSvc.dispatch env0
        (some
          { grantTypes := [g!"authorization_code"], responseTypes := [g!"code"],
            redirectUris := [g!"https://client.example.org/cb"], clientId := [] })
        { issuer := g!"http://127.0.0.1:8080", client := (some { clientId := g!"s6BhdRkqt3" }),
          grantType := Oidc.grantAuthorizationCode,
          grant := (some
                     (.authorizationCode
                       { code := g!"1234567891234567890",
                         codeVerifier := g!"dBjftJeZ4CVP-mB92K27uhbUJU1p1r_wW1gFWFOEjXk",
                         redirectUri := g!"https://client.example.org/cb1" })) })
      [.csGet g!"http://127.0.0.1:8080" g!"1234567891234567890"
         (.ok
           (some
             { request := (some
                            { audience := g!"mDuGcLjmamjNpLmYZMLIshFcXUDCNDcH",
                              responseType := g!"code", scope := g!"openid profile email",
                              clientId := g!"s6BhdRkqt3", state := g!"af0ifjsldkj",
                              redirectUri := g!"https://client.example.org/cb1",
                              codeChallenge := g!"E9Melhoa2OwvFrEMTJguCHaoeK1t8URWbuGJSstw-cM",
                              codeChallengeMethod := g!"S256" }), issuer := [], subject := [] })),
       .csDel g!"http://127.0.0.1:8080" g!"1234567891234567890" (.ok ())] anon
      { error := (some ⟨.invalidGrant, some g!"af0ifjsldkj"⟩), goErr := true } := by decide +kernel

-- line 560: invalid code_verifier
example :
    runs 0
      (TokenSvc.dispatch env0
        (some
          { grantTypes := [g!"authorization_code"], responseTypes := [g!"code"],
            redirectUris := [g!"https://client.example.org/cb"], clientId := [] })
        { issuer := g!"http://127.0.0.1:8080", client := (some { clientId := g!"s6BhdRkqt3" }),
          grantType := Oidc.grantAuthorizationCode,
          grant := (some
                     (.authorizationCode
                       { code := g!"1234567891234567890",
                         codeVerifier := g!"foofoofoofoofoofoofoofoofoofoofoofoofoofoofoo",
                         redirectUri := g!"https://client.example.org/cb" })) })
      [.csGet g!"http://127.0.0.1:8080" g!"1234567891234567890"
         (.ok
           (some
             { request := (some
                            { audience := g!"mDuGcLjmamjNpLmYZMLIshFcXUDCNDcH",
                              responseType := g!"code", scope := g!"openid profile email",
                              clientId := g!"s6BhdRkqt3", state := g!"af0ifjsldkj",
                              redirectUri := g!"https://client.example.org/cb",
                              codeChallenge := g!"E9Melhoa2OwvFrEMTJguCHaoeK1t8URWbuGJSstw-cM",
                              codeChallengeMethod := g!"S256" }), issuer := [], subject := [] })),
       .csDel g!"http://127.0.0.1:8080" g!"1234567891234567890" (.ok ())] anon
      { error := (some ⟨.invalidGrant, some g!"af0ifjsldkj"⟩), goErr := true } := by decide +kernel

-- line 604: invalid code_challenge_method
example :
    runs 0
      (TokenSvc.dispatch env0
        (some
          { grantTypes := [g!"authorization_code"], responseTypes := [g!"code"],
            redirectUris := [g!"https://client.example.org/cb"], clientId := [] })
        { issuer := g!"http://127.0.0.1:8080", client := (some { clientId := g!"s6BhdRkqt3" }),
          grantType := Oidc.grantAuthorizationCode,
          grant := (some
                     (.authorizationCode
                       { code := g!"1234567891234567890",
                         codeVerifier := g!"dBjftJeZ4CVP-mB92K27uhbUJU1p1r_wW1gFWFOEjXk",
                         redirectUri := g!"https://client.example.org/cb" })) })
      [.csGet g!"http://127.0.0.1:8080" g!"1234567891234567890"
         (.ok
           (some
             { request := (some
                            { audience := g!"mDuGcLjmamjNpLmYZMLIshFcXUDCNDcH",
                              responseType := g!"code", scope := g!"openid profile email",
                              clientId := g!"s6BhdRkqt3", state := g!"af0ifjsldkj",
                              redirectUri := g!"https://client.example.org/cb",
                              codeChallenge := g!"E9Melhoa2OwvFrEMTJguCHaoeK1t8URWbuGJSstw-cM",
                              codeChallengeMethod := g!"xxx" }), issuer := [], subject := [] })),
       .csDel g!"http://127.0.0.1:8080" g!"1234567891234567890" (.ok ())] anon
      { error := (some ⟨.invalidGrant, some g!"af0ifjsldkj"⟩), goErr := true } := by decide +kernel

-- line 649: openid: generate access token error
example :
    runs 0
      (TokenSvc.dispatch env0
        (some
          { grantTypes := [g!"authorization_code"], responseTypes := [g!"code"],
            redirectUris := [g!"https://client.example.org/cb"], clientId := [] })
        { issuer := g!"http://127.0.0.1:8080", client := (some { clientId := g!"s6BhdRkqt3" }),
          grantType := Oidc.grantAuthorizationCode,
          grant := (some
                     (.authorizationCode
                       { code := g!"1234567891234567890",
                         codeVerifier := g!"dBjftJeZ4CVP-mB92K27uhbUJU1p1r_wW1gFWFOEjXk",
                         redirectUri := g!"https://client.example.org/cb" })) })
      [.csGet g!"http://127.0.0.1:8080" g!"1234567891234567890"
         (.ok
           (some
             { request := (some
                            { audience := g!"mDuGcLjmamjNpLmYZMLIshFcXUDCNDcH",
                              responseType := g!"code", scope := g!"openid profile email",
                              clientId := g!"s6BhdRkqt3", state := g!"af0ifjsldkj",
                              redirectUri := g!"https://client.example.org/cb",
                              codeChallenge := g!"E9Melhoa2OwvFrEMTJguCHaoeK1t8URWbuGJSstw-cM",
                              codeChallengeMethod := g!"S256" }), issuer := [], subject := [] })),
       .csDel g!"http://127.0.0.1:8080" g!"1234567891234567890" (.ok ()), .genAT (.error .other)]
      anon { error := (some ⟨.serverError, none⟩), goErr := true } := by decide +kernel

-- line 694: openid: empty generated access token
example :
    runs 0
      (TokenSvc.dispatch env0
        (some
          { grantTypes := [g!"authorization_code"], responseTypes := [g!"code"],
            redirectUris := [g!"https://client.example.org/cb"], clientId := [] })
        { issuer := g!"http://127.0.0.1:8080", client := (some { clientId := g!"s6BhdRkqt3" }),
          grantType := Oidc.grantAuthorizationCode,
          grant := (some
                     (.authorizationCode
                       { code := g!"1234567891234567890",
                         codeVerifier := g!"dBjftJeZ4CVP-mB92K27uhbUJU1p1r_wW1gFWFOEjXk",
                         redirectUri := g!"https://client.example.org/cb" })) })
      [.csGet g!"http://127.0.0.1:8080" g!"1234567891234567890"
         (.ok
           (some
             { request := (some
                            { audience := g!"mDuGcLjmamjNpLmYZMLIshFcXUDCNDcH",
                              responseType := g!"code", scope := g!"openid profile email",
                              clientId := g!"s6BhdRkqt3", state := g!"af0ifjsldkj",
                              redirectUri := g!"https://client.example.org/cb",
                              codeChallenge := g!"E9Melhoa2OwvFrEMTJguCHaoeK1t8URWbuGJSstw-cM",
                              codeChallengeMethod := g!"S256" }), issuer := [], subject := [] })),
       .csDel g!"http://127.0.0.1:8080" g!"1234567891234567890" (.ok ()), .genAT (.ok [])] anon
      { error := (some ⟨.serverError, none⟩), goErr := true } := by decide +kernel

-- line 739: openid: access token storage error
example :
    runs 0
      (TokenSvc.dispatch env0
        (some
          { grantTypes := [g!"authorization_code"], responseTypes := [g!"code"],
            redirectUris := [g!"https://client.example.org/cb"], clientId := [] })
        { issuer := g!"http://127.0.0.1:8080", client := (some { clientId := g!"s6BhdRkqt3" }),
          grantType := Oidc.grantAuthorizationCode,
          grant := (some
                     (.authorizationCode
                       { code := g!"1234567891234567890",
                         codeVerifier := g!"dBjftJeZ4CVP-mB92K27uhbUJU1p1r_wW1gFWFOEjXk",
                         redirectUri := g!"https://client.example.org/cb" })) })
      [.csGet g!"http://127.0.0.1:8080" g!"1234567891234567890"
         (.ok
           (some
             { request := (some
                            { audience := g!"mDuGcLjmamjNpLmYZMLIshFcXUDCNDcH",
                              responseType := g!"code", scope := g!"openid profile email",
                              clientId := g!"s6BhdRkqt3", state := g!"af0ifjsldkj",
                              redirectUri := g!"https://client.example.org/cb",
                              codeChallenge := g!"E9Melhoa2OwvFrEMTJguCHaoeK1t8URWbuGJSstw-cM",
                              codeChallengeMethod := g!"S256" }), issuer := [], subject := [] })),
       .csDel g!"http://127.0.0.1:8080" g!"1234567891234567890" (.ok ()),
       .genAT (.ok g!"cwE.HcbVtkyQCyCUfjxYvjHNODfTbVpSlmyo"),
       .tkCreate g!"http://127.0.0.1:8080" (.error .other)] anon
      { error := (some ⟨.serverError, none⟩), goErr := true } := by decide +kernel

-- line 785: openid: generate refresh token error
example :
    runs 0
      (TokenSvc.dispatch env0
        (some
          { grantTypes := [g!"authorization_code"], responseTypes := [g!"code"],
            redirectUris := [g!"https://client.example.org/cb"], clientId := [] })
        { issuer := g!"http://127.0.0.1:8080", client := (some { clientId := g!"s6BhdRkqt3" }),
          grantType := Oidc.grantAuthorizationCode,
          grant := (some
                     (.authorizationCode
                       { code := g!"1234567891234567890",
                         codeVerifier := g!"dBjftJeZ4CVP-mB92K27uhbUJU1p1r_wW1gFWFOEjXk",
                         redirectUri := g!"https://client.example.org/cb" })) })
      [.csGet g!"http://127.0.0.1:8080" g!"1234567891234567890"
         (.ok
           (some
             { request := (some
                            { audience := g!"mDuGcLjmamjNpLmYZMLIshFcXUDCNDcH",
                              responseType := g!"code",
                              scope := g!"openid profile email offline_access",
                              clientId := g!"s6BhdRkqt3", state := g!"af0ifjsldkj",
                              redirectUri := g!"https://client.example.org/cb",
                              codeChallenge := g!"E9Melhoa2OwvFrEMTJguCHaoeK1t8URWbuGJSstw-cM",
                              codeChallengeMethod := g!"S256" }), issuer := [], subject := [] })),
       .csDel g!"http://127.0.0.1:8080" g!"1234567891234567890" (.ok ()),
       .genAT (.ok g!"cwE.HcbVtkyQCyCUfjxYvjHNODfTbVpSlmyo"),
       .tkCreate g!"http://127.0.0.1:8080" (.ok ()), .genRT (.error .other)] anon
      { error := (some ⟨.serverError, none⟩), goErr := true } := by decide +kernel

-- line 832: openid: empty generated refresh token
example :
    runs 0
      (TokenSvc.dispatch env0
        (some
          { grantTypes := [g!"authorization_code"], responseTypes := [g!"code"],
            redirectUris := [g!"https://client.example.org/cb"], clientId := [] })
        { issuer := g!"http://127.0.0.1:8080", client := (some { clientId := g!"s6BhdRkqt3" }),
          grantType := Oidc.grantAuthorizationCode,
          grant := (some
                     (.authorizationCode
                       { code := g!"1234567891234567890",
                         codeVerifier := g!"dBjftJeZ4CVP-mB92K27uhbUJU1p1r_wW1gFWFOEjXk",
                         redirectUri := g!"https://client.example.org/cb" })) })
      [.csGet g!"http://127.0.0.1:8080" g!"1234567891234567890"
         (.ok
           (some
             { request := (some
                            { audience := g!"mDuGcLjmamjNpLmYZMLIshFcXUDCNDcH",
                              responseType := g!"code",
                              scope := g!"openid profile email offline_access",
                              clientId := g!"s6BhdRkqt3", state := g!"af0ifjsldkj",
                              redirectUri := g!"https://client.example.org/cb",
                              codeChallenge := g!"E9Melhoa2OwvFrEMTJguCHaoeK1t8URWbuGJSstw-cM",
                              codeChallengeMethod := g!"S256" }), issuer := [], subject := [] })),
       .csDel g!"http://127.0.0.1:8080" g!"1234567891234567890" (.ok ()),
       .genAT (.ok g!"cwE.HcbVtkyQCyCUfjxYvjHNODfTbVpSlmyo"),
       .tkCreate g!"http://127.0.0.1:8080" (.ok ()), .genRT (.ok [])] anon
      { error := (some ⟨.serverError, none⟩), goErr := true } := by decide +kernel

-- line 879: openid: refresh token storage error
example :
    runs 0
      (TokenSvc.dispatch env0
        (some
          { grantTypes := [g!"authorization_code"], responseTypes := [g!"code"],
            redirectUris := [g!"https://client.example.org/cb"], clientId := [] })
        { issuer := g!"http://127.0.0.1:8080", client := (some { clientId := g!"s6BhdRkqt3" }),
          grantType := Oidc.grantAuthorizationCode,
          grant := (some
                     (.authorizationCode
                       { code := g!"1234567891234567890",
                         codeVerifier := g!"dBjftJeZ4CVP-mB92K27uhbUJU1p1r_wW1gFWFOEjXk",
                         redirectUri := g!"https://client.example.org/cb" })) })
      [.csGet g!"http://127.0.0.1:8080" g!"1234567891234567890"
         (.ok
           (some
             { request := (some
                            { audience := g!"mDuGcLjmamjNpLmYZMLIshFcXUDCNDcH",
                              responseType := g!"code",
                              scope := g!"openid profile email offline_access",
                              clientId := g!"s6BhdRkqt3", state := g!"af0ifjsldkj",
                              redirectUri := g!"https://client.example.org/cb",
                              codeChallenge := g!"E9Melhoa2OwvFrEMTJguCHaoeK1t8URWbuGJSstw-cM",
                              codeChallengeMethod := g!"S256" }), issuer := [], subject := [] })),
       .csDel g!"http://127.0.0.1:8080" g!"1234567891234567890" (.ok ()),
       .genAT (.ok g!"cwE.HcbVtkyQCyCUfjxYvjHNODfTbVpSlmyo"),
       .tkCreate g!"http://127.0.0.1:8080" (.ok ()),
       .genRT (.ok g!"LHT.djeMMoErRAsLuXLlDYZDGdodfVLOduDi"),
       .tkCreate g!"http://127.0.0.1:8080" (.error .other)] anon
      { error := (some ⟨.serverError, none⟩), goErr := true } := by decide +kernel

-- line 928: openid: valid
example :
    runs 1000000000
      (TokenSvc.dispatch env0
        (some
          { grantTypes := [g!"authorization_code"], responseTypes := [g!"code"],
            redirectUris := [g!"https://client.example.org/cb"], clientId := [] })
        { issuer := g!"http://127.0.0.1:8080", client := (some { clientId := g!"s6BhdRkqt3" }),
          grantType := Oidc.grantAuthorizationCode,
          grant := (some
                     (.authorizationCode
                       { code := g!"1234567891234567890",
                         codeVerifier := g!"dBjftJeZ4CVP-mB92K27uhbUJU1p1r_wW1gFWFOEjXk",
                         redirectUri := g!"https://client.example.org/cb" })) })
      [.csGet g!"http://127.0.0.1:8080" g!"1234567891234567890"
         (.ok
           (some
             { request := (some
                            { audience := g!"mDuGcLjmamjNpLmYZMLIshFcXUDCNDcH",
                              responseType := g!"code",
                              scope := g!"openid profile email offline_access",
                              clientId := g!"s6BhdRkqt3", state := g!"af0ifjsldkj",
                              redirectUri := g!"https://client.example.org/cb",
                              codeChallenge := g!"E9Melhoa2OwvFrEMTJguCHaoeK1t8URWbuGJSstw-cM",
                              codeChallengeMethod := g!"S256" }), issuer := [], subject := [] })),
       .csDel g!"http://127.0.0.1:8080" g!"1234567891234567890" (.ok ()),
       .genAT (.ok g!"cwE.HcbVtkyQCyCUfjxYvjHNODfTbVpSlmyo"),
       .tkCreate g!"http://127.0.0.1:8080" (.ok ()),
       .genRT (.ok g!"LHT.djeMMoErRAsLuXLlDYZDGdodfVLOduDi"),
       .tkCreate g!"http://127.0.0.1:8080" (.ok ())] anon
      { error := none,
        accessToken := (some
                         { tokenType := .accessToken, status := .active,
                           metadata := (some
                                         { issuer := g!"http://127.0.0.1:8080",
                                           audience := g!"mDuGcLjmamjNpLmYZMLIshFcXUDCNDcH",
                                           scope := g!"openid profile email offline_access",
                                           issuedAt := 1, notBefore := 2, expiresAt := 3601 }),
                           value := g!"cwE.HcbVtkyQCyCUfjxYvjHNODfTbVpSlmyo" }),
        refreshToken := (some
                          { tokenType := .refreshToken, status := .active,
                            metadata := (some
                                          { issuer := g!"http://127.0.0.1:8080",
                                            audience := g!"mDuGcLjmamjNpLmYZMLIshFcXUDCNDcH",
                                            scope := g!"openid profile email offline_access",
                                            issuedAt := 1, notBefore := 2, expiresAt := 604801 }),
                            value := g!"LHT.djeMMoErRAsLuXLlDYZDGdodfVLOduDi" }) } := by decide +kernel

/-! ### `Test_service_clientCredentials` (server/services/token/grant_client_credentials_test.go) -/

-- line 51: nil client
example :
    runs 0
      (TokenSvc.dispatch env0 none
        { grantType := Oidc.grantClientCredentials, grant := (some .clientCredentials),
          issuer := [], client := none }) [] anon
      { error := (some ⟨.serverError, none⟩), goErr := true } := by decide +kernel

-- line 78: nil grant
example :
    runs 0
      (TokenSvc.dispatch env0 (some { clientId := [] })
        { issuer := [], client := none, grantType := Oidc.grantClientCredentials }) [] anon
      { error := (some ⟨.serverError, none⟩), goErr := true } := by decide +kernel

-- line 90: empty issuer
example :
    runs 0
      (TokenSvc.dispatch env0 (some { clientId := [] })
        { issuer := [], grant := (some .clientCredentials), client := none,
          grantType := Oidc.grantClientCredentials }) [] anon
      { error := (some ⟨.serverError, none⟩), goErr := true } := by decide +kernel

-- line 107: invalid issuer
example :
    runs 0
      (TokenSvc.dispatch env0 (some { clientId := [] })
        { issuer := g!"123456", grant := (some .clientCredentials), client := none,
          grantType := Oidc.grantClientCredentials }) [] anon
      { error := (some ⟨.serverError, none⟩), goErr := true } := by decide +kernel

-- line 124: unsupported client type
example :
    runs 0
      (TokenSvc.dispatch env0
        (some
          { clientType := .pub, grantTypes := [g!"authorization_code"],
            redirectUris := [g!"https://client.example.org/cb"], clientId := [] })
        { issuer := g!"http://127.0.0.1:8080", client := (some { clientId := g!"s6BhdRkqt3" }),
          grantType := Oidc.grantClientCredentials, grant := (some .clientCredentials) }) [] anon
      { error := (some ⟨.invalidClient, none⟩), goErr := true } := by decide +kernel

-- line 149: client not support grant_type
example :
    runs 0
      (TokenSvc.dispatch env0
        (some
          { clientType := .confidential, grantTypes := [g!"authorization_code"],
            redirectUris := [g!"https://client.example.org/cb"], clientId := [] })
        { issuer := g!"http://127.0.0.1:8080", client := (some { clientId := g!"s6BhdRkqt3" }),
          grantType := Oidc.grantClientCredentials, grant := (some .clientCredentials) }) [] anon
      { error := (some ⟨.unsupportedGrantType, none⟩), goErr := true } := by decide +kernel

-- line 175: openid: access token generation error
example :
    runs 0
      (TokenSvc.dispatch env0
        (some
          { clientType := .confidential, grantTypes := [g!"client_credentials"], clientId := [] })
        { issuer := g!"http://127.0.0.1:8080", client := (some { clientId := g!"s6BhdRkqt3" }),
          grantType := Oidc.grantClientCredentials, grant := (some .clientCredentials) })
      [.genAT (.error .other)] anon
      { error := (some ⟨.serverError, none⟩), goErr := true } := by decide +kernel

-- line 202: openid: empty access token generation
example :
    runs 0
      (TokenSvc.dispatch env0
        (some
          { clientType := .confidential, grantTypes := [g!"client_credentials"], clientId := [] })
        { issuer := g!"http://127.0.0.1:8080", client := (some { clientId := g!"s6BhdRkqt3" }),
          grantType := Oidc.grantClientCredentials, grant := (some .clientCredentials) })
      [.genAT (.ok [])] anon
      { error := (some ⟨.serverError, none⟩), goErr := true } := by decide +kernel

-- line 229: openid: access token storage error
example :
    runs 0
      (TokenSvc.dispatch env0
        (some
          { clientType := .confidential, grantTypes := [g!"client_credentials"], clientId := [] })
        { issuer := g!"http://127.0.0.1:8080", client := (some { clientId := g!"s6BhdRkqt3" }),
          grantType := Oidc.grantClientCredentials, grant := (some .clientCredentials) })
      [.genAT (.ok g!"cwE.HcbVtkyQCyCUfjxYvjHNODfTbVpSlmyo"),
       .tkCreate g!"http://127.0.0.1:8080" (.error .other)] anon
      { error := (some ⟨.serverError, none⟩), goErr := true } := by decide +kernel

-- line 258: valid
example :
    runs 1000000000
      (TokenSvc.dispatch env0
        (some
          { clientType := .confidential, grantTypes := [g!"client_credentials"], clientId := [] })
        { issuer := g!"http://127.0.0.1:8080", client := (some { clientId := g!"s6BhdRkqt3" }),
          grantType := Oidc.grantClientCredentials, grant := (some .clientCredentials) })
      [.genAT (.ok g!"cwE.HcbVtkyQCyCUfjxYvjHNODfTbVpSlmyo"),
       .tkCreate g!"http://127.0.0.1:8080" (.ok ())] anon
      { error := none,
        accessToken := (some
                         { tokenType := .accessToken, status := .active,
                           metadata := (some
                                         { issuer := g!"http://127.0.0.1:8080", issuedAt := 1,
                                           notBefore := 2, expiresAt := 3601 }),
                           value := g!"cwE.HcbVtkyQCyCUfjxYvjHNODfTbVpSlmyo" }) } := by decide +kernel

end Verif.Replay
