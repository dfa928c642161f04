import Verif.Replay.Basic

/-! The tests of the token service, replayed on the model (see `Verif.Replay.Basic`). -/
namespace Verif.Replay

/-! ### `Test_service_Introspect` (server/services/token/introspection_test.go) -/

-- line 49: nil request
example :
    runs 0 (TokenSvc.introspect env0 none) [] anonI
      { error := (some ⟨.invalidRequest, none⟩), goErr := true } := by decide +kernel

-- line 59: empty issuer
example :
    runs 0 (TokenSvc.introspect env0 (some { issuer := [], client := none, token := [] })) [] anonI
      { error := (some ⟨.invalidRequest, none⟩), goErr := true } := by decide +kernel

-- line 72: invalid issuer
example :
    runs 0 (TokenSvc.introspect env0 (some { issuer := g!"foo", client := none, token := [] })) []
      anonI { error := (some ⟨.invalidRequest, none⟩), goErr := true } := by decide +kernel

-- line 85: nil client authentication
example :
    runs 0
      (TokenSvc.introspect env0
        (some { issuer := g!"https://honest.as.example.com", client := none, token := [] })) []
      anonI { error := (some ⟨.invalidClient, none⟩), goErr := true } := by decide +kernel

-- line 98: nil token
example :
    runs 0
      (TokenSvc.introspect env0
        (some
          { issuer := g!"https://honest.as.example.com", client := (some { clientId := [] }),
            token := [] })) [] anonI
      { error := (some ⟨.invalidRequest, none⟩), goErr := true } := by decide +kernel

-- line 112: empty token
example :
    runs 0
      (TokenSvc.introspect env0
        (some
          { issuer := g!"https://honest.as.example.com", client := (some { clientId := [] }),
            token := [] })) [] anonI
      { error := (some ⟨.invalidRequest, none⟩), goErr := true } := by decide +kernel

-- line 128: client not found
example :
    runs 0
      (TokenSvc.introspect env0
        (some
          { issuer := g!"https://honest.as.example.com",
            client := (some { clientId := g!"s6BhdRkqt3" }),
            token := g!"cwE.HcbVtkyQCyCUfjxYvjHNODfTbVpSlmyo" }))
      [.clientsGet g!"s6BhdRkqt3" (.error .notFound)] anonI
      { error := (some ⟨.invalidClient, none⟩), goErr := true } := by decide +kernel

-- line 148: client storage error
example :
    runs 0
      (TokenSvc.introspect env0
        (some
          { issuer := g!"https://honest.as.example.com",
            client := (some { clientId := g!"s6BhdRkqt3" }),
            token := g!"cwE.HcbVtkyQCyCUfjxYvjHNODfTbVpSlmyo" }))
      [.clientsGet g!"s6BhdRkqt3" (.error .other)] anonI
      { error := (some ⟨.serverError, none⟩), goErr := true } := by decide +kernel

-- line 169: token not found
example :
    runs 0
      (TokenSvc.introspect env0
        (some
          { issuer := g!"https://honest.as.example.com",
            client := (some { clientId := g!"s6BhdRkqt3" }),
            token := g!"cwE.HcbVtkyQCyCUfjxYvjHNODfTbVpSlmyo" }))
      [.clientsGet g!"s6BhdRkqt3"
         (.ok (some { grantTypes := [g!"client_credentials"], clientId := [] })),
       .tkGetVal g!"https://honest.as.example.com" g!"cwE.HcbVtkyQCyCUfjxYvjHNODfTbVpSlmyo"
         (.error .notFound)] anonI
      { token := (some
                   { issuer := g!"https://honest.as.example.com",
                     value := g!"cwE.HcbVtkyQCyCUfjxYvjHNODfTbVpSlmyo", status := .unknown }) } := by decide +kernel

-- line 196: token storage error
example :
    runs 0
      (TokenSvc.introspect env0
        (some
          { issuer := g!"https://honest.as.example.com",
            client := (some { clientId := g!"s6BhdRkqt3" }),
            token := g!"cwE.HcbVtkyQCyCUfjxYvjHNODfTbVpSlmyo" }))
      [.clientsGet g!"s6BhdRkqt3"
         (.ok (some { grantTypes := [g!"client_credentials"], clientId := [] })),
       .tkGetVal g!"https://honest.as.example.com" g!"cwE.HcbVtkyQCyCUfjxYvjHNODfTbVpSlmyo"
         (.error .other)] anonI
      { error := (some ⟨.serverError, none⟩), goErr := true } := by decide +kernel

-- line 220: valid
example :
    runs 0
      (TokenSvc.introspect env0
        (some
          { issuer := g!"https://honest.as.example.com",
            client := (some { clientId := g!"s6BhdRkqt3" }),
            token := g!"cwE.HcbVtkyQCyCUfjxYvjHNODfTbVpSlmyo" }))
      [.clientsGet g!"s6BhdRkqt3" (.ok (some { clientId := [] })),
       .tkGetVal g!"https://honest.as.example.com" g!"cwE.HcbVtkyQCyCUfjxYvjHNODfTbVpSlmyo"
         (.ok
           (some
             { issuer := g!"https://honest.as.example.com", status := .active,
               tokenId := g!"123456789", value := g!"cwE.HcbVtkyQCyCUfjxYvjHNODfTbVpSlmyo" }))]
      anonI
      { token := (some
                   { issuer := g!"https://honest.as.example.com",
                     value := g!"cwE.HcbVtkyQCyCUfjxYvjHNODfTbVpSlmyo", status := .active }) } := by decide +kernel

/-! ### `Test_service_Revoke` (server/services/token/revoke_test.go) -/

-- line 49: nil request
example :
    runs 0 (TokenSvc.revoke env0 none) [] id
      { error := (some ⟨.invalidRequest, none⟩), goErr := true } := by decide +kernel

-- line 59: empty issuer
example :
    runs 0 (TokenSvc.revoke env0 (some { issuer := [], client := none, token := [] })) [] id
      { error := (some ⟨.invalidRequest, none⟩), goErr := true } := by decide +kernel

-- line 72: invalid issuer
example :
    runs 0 (TokenSvc.revoke env0 (some { issuer := g!"foo", client := none, token := [] })) [] id
      { error := (some ⟨.invalidRequest, none⟩), goErr := true } := by decide +kernel

-- line 85: nil client authentication
example :
    runs 0
      (TokenSvc.revoke env0
        (some { issuer := g!"https://honest.as.example.com", client := none, token := [] })) [] id
      { error := (some ⟨.invalidClient, none⟩), goErr := true } := by decide +kernel

-- line 98: nil token
example :
    runs 0
      (TokenSvc.revoke env0
        (some
          { issuer := g!"https://honest.as.example.com", client := (some { clientId := [] }),
            token := [] })) [] id
      { error := (some ⟨.invalidRequest, none⟩), goErr := true } := by decide +kernel

-- line 112: empty token
example :
    runs 0
      (TokenSvc.revoke env0
        (some
          { issuer := g!"https://honest.as.example.com", client := (some { clientId := [] }),
            token := [] })) [] id
      { error := (some ⟨.invalidRequest, none⟩), goErr := true } := by decide +kernel

-- line 128: client not found
example :
    runs 0
      (TokenSvc.revoke env0
        (some
          { issuer := g!"https://honest.as.example.com",
            client := (some { clientId := g!"s6BhdRkqt3" }),
            token := g!"cwE.HcbVtkyQCyCUfjxYvjHNODfTbVpSlmyo" }))
      [.clientsGet g!"s6BhdRkqt3" (.error .notFound)] id
      { error := (some ⟨.invalidClient, none⟩), goErr := true } := by decide +kernel

-- line 148: client storage error
example :
    runs 0
      (TokenSvc.revoke env0
        (some
          { issuer := g!"https://honest.as.example.com",
            client := (some { clientId := g!"s6BhdRkqt3" }),
            token := g!"cwE.HcbVtkyQCyCUfjxYvjHNODfTbVpSlmyo" }))
      [.clientsGet g!"s6BhdRkqt3" (.error .other)] id
      { error := (some ⟨.serverError, none⟩), goErr := true } := by decide +kernel

-- line 169: token not found
example :
    runs 0
      (TokenSvc.revoke env0
        (some
          { issuer := g!"https://honest.as.example.com",
            client := (some { clientId := g!"s6BhdRkqt3" }),
            token := g!"cwE.HcbVtkyQCyCUfjxYvjHNODfTbVpSlmyo" }))
      [.clientsGet g!"s6BhdRkqt3"
         (.ok (some { grantTypes := [g!"client_credentials"], clientId := [] })),
       .tkGetVal g!"https://honest.as.example.com" g!"cwE.HcbVtkyQCyCUfjxYvjHNODfTbVpSlmyo"
         (.error .notFound)] id { goErr := true } := by decide +kernel

-- line 190: token storage error
example :
    runs 0
      (TokenSvc.revoke env0
        (some
          { issuer := g!"https://honest.as.example.com",
            client := (some { clientId := g!"s6BhdRkqt3" }),
            token := g!"cwE.HcbVtkyQCyCUfjxYvjHNODfTbVpSlmyo" }))
      [.clientsGet g!"s6BhdRkqt3"
         (.ok (some { grantTypes := [g!"client_credentials"], clientId := [] })),
       .tkGetVal g!"https://honest.as.example.com" g!"cwE.HcbVtkyQCyCUfjxYvjHNODfTbVpSlmyo"
         (.error .other)] id { goErr := true } := by decide +kernel

-- line 211: revoke storage error
example :
    runs 0
      (TokenSvc.revoke env0
        (some
          { issuer := g!"https://honest.as.example.com",
            client := (some { clientId := g!"s6BhdRkqt3" }),
            token := g!"cwE.HcbVtkyQCyCUfjxYvjHNODfTbVpSlmyo" }))
      [.clientsGet g!"s6BhdRkqt3" (.ok (some { clientId := [] })),
       .tkGetVal g!"https://honest.as.example.com" g!"cwE.HcbVtkyQCyCUfjxYvjHNODfTbVpSlmyo"
         (.ok
           (some
             { issuer := g!"https://honest.as.example.com", status := .active,
               tokenId := g!"123456789", value := g!"cwE.HcbVtkyQCyCUfjxYvjHNODfTbVpSlmyo" })),
       .tkRevoke g!"https://honest.as.example.com" g!"123456789" (.error .other)] id
      { goErr := true } := by decide +kernel

-- line 237: valid
example :
    runs 0
      (TokenSvc.revoke env0
        (some
          { issuer := g!"https://honest.as.example.com",
            client := (some { clientId := g!"s6BhdRkqt3" }),
            token := g!"cwE.HcbVtkyQCyCUfjxYvjHNODfTbVpSlmyo" }))
      [.clientsGet g!"s6BhdRkqt3" (.ok (some { clientId := [] })),
       .tkGetVal g!"https://honest.as.example.com" g!"cwE.HcbVtkyQCyCUfjxYvjHNODfTbVpSlmyo"
         (.ok
           (some
             { issuer := g!"https://honest.as.example.com", status := .active,
               tokenId := g!"123456789", value := g!"cwE.HcbVtkyQCyCUfjxYvjHNODfTbVpSlmyo" })),
       .tkRevoke g!"https://honest.as.example.com" g!"123456789" (.ok ())] id { } := by decide +kernel

/-! ### `Test_service_Token` (server/services/token/service_test.go) -/

-- line 58: nil
example :
    runs 0 (TokenSvc.token env0 none) [] anon
      { error := (some ⟨.invalidRequest, none⟩), goErr := true } := by decide +kernel

-- line 72: empty request
example :
    runs 0 (TokenSvc.token env0 (some { issuer := [], client := none, grantType := [] })) [] anon
      { error := (some ⟨.serverError, none⟩), goErr := true } := by decide +kernel

-- line 83: issuer missing
example :
    runs 0
      (TokenSvc.token env0
        (some { client := none, grantType := g!"authorization_code", issuer := [] })) [] anon
      { error := (some ⟨.serverError, none⟩), goErr := true } := by decide +kernel

-- line 97: client authentication nil
example :
    runs 0
      (TokenSvc.token env0
        (some
          { issuer := g!"http://127.0.0.1:8080", client := none,
            grantType := g!"authorization_code" })) [] anon
      { error := (some ⟨.invalidClient, none⟩), goErr := true } := by decide +kernel

-- line 112: empty grant_type
example :
    runs 0
      (TokenSvc.token env0
        (some
          { issuer := g!"http://127.0.0.1:8080", client := (some { clientId := g!"s6BhdRkqt3" }),
            grantType := [] })) [] anon
      { error := (some ⟨.invalidGrant, none⟩), goErr := true } := by decide +kernel

-- line 129: invalid grant_type
example :
    runs 0
      (TokenSvc.token env0
        (some
          { issuer := g!"http://127.0.0.1:8080", client := (some { clientId := g!"s6BhdRkqt3" }),
            grantType := g!"foo" })) [] anon
      { error := (some ⟨.invalidGrant, none⟩), goErr := true } := by decide +kernel

-- line 146: grant_type mismatch: authorization_code
example :
    runs 0
      (TokenSvc.token env0
        (some
          { issuer := g!"http://127.0.0.1:8080", client := (some { clientId := g!"s6BhdRkqt3" }),
            grantType := g!"authorization_code" })) [] anon
      { error := (some ⟨.invalidGrant, none⟩), goErr := true } := by decide +kernel

-- line 163: grant_type mismatch: client_credentials
example :
    runs 0
      (TokenSvc.token env0
        (some
          { issuer := g!"http://127.0.0.1:8080", client := (some { clientId := g!"s6BhdRkqt3" }),
            grantType := g!"client_credentials" })) [] anon
      { error := (some ⟨.invalidGrant, none⟩), goErr := true } := by decide +kernel

-- line 180: grant_type mismatch: device_code
example :
    runs 0
      (TokenSvc.token env0
        (some
          { issuer := g!"http://127.0.0.1:8080", client := (some { clientId := g!"s6BhdRkqt3" }),
            grantType := g!"urn:ietf:params:oauth:grant-type:device_code" })) [] anon
      { error := (some ⟨.invalidGrant, none⟩), goErr := true } := by decide +kernel

-- line 197: grant_type mismatch: refresh_token
example :
    runs 0
      (TokenSvc.token env0
        (some
          { issuer := g!"http://127.0.0.1:8080", client := (some { clientId := g!"s6BhdRkqt3" }),
            grantType := g!"refresh_token" })) [] anon
      { error := (some ⟨.invalidGrant, none⟩), goErr := true } := by decide +kernel

-- line 215: client not found
example :
    runs 0
      (TokenSvc.token env0
        (some
          { issuer := g!"http://127.0.0.1:8080", client := (some { clientId := g!"s6BhdRkqt3" }),
            grantType := g!"authorization_code",
            grant := (some
                       (.authorizationCode
                         { code := g!"1234567891234567890", codeVerifier := g!"azertyuiop",
                           redirectUri := g!"https://client.example.org/cb" })) }))
      [.clientsGet g!"s6BhdRkqt3" (.error .notFound)] anon
      { error := (some ⟨.invalidClient, none⟩), goErr := true } := by decide +kernel

-- line 242: client storage error
example :
    runs 0
      (TokenSvc.token env0
        (some
          { issuer := g!"http://127.0.0.1:8080", client := (some { clientId := g!"s6BhdRkqt3" }),
            grantType := g!"authorization_code",
            grant := (some
                       (.authorizationCode
                         { code := g!"1234567891234567890", codeVerifier := g!"azertyuiop",
                           redirectUri := g!"https://client.example.org/cb" })) }))
      [.clientsGet g!"s6BhdRkqt3" (.error .other)] anon
      { error := (some ⟨.serverError, none⟩), goErr := true } := by decide +kernel

-- line 299: client_credentials
example :
    runs 1000000000
      (TokenSvc.token env0
        (some
          { issuer := g!"http://127.0.0.1:8080",
            client := (some { clientId := g!"s6BhdRkqt3", clientType := .confidential }),
            grantType := g!"client_credentials", grant := (some .clientCredentials) }))
      [.clientsGet g!"s6BhdRkqt3"
         (.ok
           (some
             { grantTypes := [g!"client_credentials"], clientType := .confidential, clientId := [] })),
       .genAT (.ok g!"cwE.HcbVtkyQCyCUfjxYvjHNODfTbVpSlmyo"),
       .tkCreate g!"http://127.0.0.1:8080" (.ok ())] anon
      { error := none,
        accessToken := (some
                         { tokenType := .accessToken, status := .active,
                           metadata := (some
                                         { issuer := g!"http://127.0.0.1:8080", issuedAt := 1,
                                           notBefore := 2, expiresAt := 3601 }),
                           value := g!"cwE.HcbVtkyQCyCUfjxYvjHNODfTbVpSlmyo" }) } := by decide +kernel

-- line 341: authorization_code
example :
    runs 1000000000
      (TokenSvc.token env0
        (some
          { issuer := g!"http://127.0.0.1:8080", client := (some { clientId := g!"s6BhdRkqt3" }),
            grantType := g!"authorization_code",
            grant := (some
                       (.authorizationCode
                         { code := g!"1234567891234567890",
                           codeVerifier := g!"dBjftJeZ4CVP-mB92K27uhbUJU1p1r_wW1gFWFOEjXk",
                           redirectUri := g!"https://client.example.org/cb" })) }))
      [.clientsGet g!"s6BhdRkqt3"
         (.ok
           (some
             { grantTypes := [g!"authorization_code"], responseTypes := [g!"code"],
               redirectUris := [g!"https://client.example.org/cb"], subjectType := g!"public",
               sectorIdentifier := g!"https://client.example.org", clientId := [] })),
       .csGet g!"http://127.0.0.1:8080" g!"1234567891234567890"
         (.ok
           (some
             { request := (some
                            { audience := g!"mDuGcLjmamjNpLmYZMLIshFcXUDCNDcH",
                              responseType := g!"code",
                              scope := g!"openid profile email offline_access",
                              clientId := g!"s6BhdRkqt3", state := g!"af0ifjsldkj",
                              redirectUri := g!"https://client.example.org/cb",
                              codeChallenge := g!"E9Melhoa2OwvFrEMTJguCHaoeK1t8URWbuGJSstw-cM",
                              codeChallengeMethod := g!"S256" }), issuer := [], subject := [] })),
       .csDel g!"http://127.0.0.1:8080" g!"1234567891234567890" (.ok ()),
       .genAT (.ok g!"cwE.HcbVtkyQCyCUfjxYvjHNODfTbVpSlmyo"),
       .tkCreate g!"http://127.0.0.1:8080" (.ok ()),
       .genRT (.ok g!"LHT.djeMMoErRAsLuXLlDYZDGdodfVLOduDi"),
       .tkCreate g!"http://127.0.0.1:8080" (.ok ())] anon
      { error := none,
        accessToken := (some
                         { tokenType := .accessToken, status := .active,
                           metadata := (some
                                         { issuer := g!"http://127.0.0.1:8080", subject := [],
                                           audience := g!"mDuGcLjmamjNpLmYZMLIshFcXUDCNDcH",
                                           scope := g!"openid profile email offline_access",
                                           issuedAt := 1, notBefore := 2, expiresAt := 3601 }),
                           value := g!"cwE.HcbVtkyQCyCUfjxYvjHNODfTbVpSlmyo" }),
        refreshToken := (some
                          { tokenType := .refreshToken, status := .active,
                            metadata := (some
                                          { issuer := g!"http://127.0.0.1:8080", subject := [],
                                            audience := g!"mDuGcLjmamjNpLmYZMLIshFcXUDCNDcH",
                                            scope := g!"openid profile email offline_access",
                                            issuedAt := 1, notBefore := 2, expiresAt := 604801 }),
                            value := g!"LHT.djeMMoErRAsLuXLlDYZDGdodfVLOduDi" }) } := by decide +kernel

-- line 421: device_code
example :
    runs 1000000000
      (TokenSvc.token env0
        (some
          { issuer := g!"http://127.0.0.1:8080", client := (some { clientId := g!"s6BhdRkqt3" }),
            grantType := g!"urn:ietf:params:oauth:grant-type:device_code",
            grant := (some (.deviceCode g!"GmRhmhcxhwAzkoEqiMEg_DnyEysNkuNhszIySk9eS")),
            scope := (some g!"openid admin") }))
      [.clientsGet g!"s6BhdRkqt3"
         (.ok
           (some
             { clientId := g!"s6BhdRkqt3",
               grantTypes := [g!"urn:ietf:params:oauth:grant-type:device_code"] })),
       .dsGetDev g!"http://127.0.0.1:8080" g!"GmRhmhcxhwAzkoEqiMEg_DnyEysNkuNhszIySk9eS"
         (.ok
           (some
             (0,
              { client := (some { clientId := g!"s6BhdRkqt3" }),
                request := (some { clientId := g!"s6BhdRkqt3", issuer := [] }), expiresAt := 200,
                status := .validated, subject := (some g!"user1") }))),
       .genAT (.ok g!"cwE.HcbVtkyQCyCUfjxYvjHNODfTbVpSlmyo"),
       .tkCreate g!"http://127.0.0.1:8080" (.ok ())] anon
      { error := none,
        accessToken := (some
                         { tokenType := .accessToken, status := .active,
                           metadata := (some
                                         { issuer := g!"http://127.0.0.1:8080", issuedAt := 1,
                                           notBefore := 2, expiresAt := 3601,
                                           clientId := g!"s6BhdRkqt3", subject := g!"user1" }),
                           value := g!"cwE.HcbVtkyQCyCUfjxYvjHNODfTbVpSlmyo" }) } := by decide +kernel

-- line 479: refresh_token
example :
    runs 1000000000
      (TokenSvc.token env0
        (some
          { issuer := g!"http://127.0.0.1:8080", client := (some { clientId := g!"s6BhdRkqt3" }),
            grantType := g!"refresh_token",
            grant := (some (.refreshToken g!"LHT.djeMMoErRAsLuXLlDYZDGdodfVLOduDi")) }))
      [.clientsGet g!"s6BhdRkqt3"
         (.ok (some { grantTypes := [g!"refresh_token"], clientId := [] })),
       .tkGetVal g!"http://127.0.0.1:8080" g!"LHT.djeMMoErRAsLuXLlDYZDGdodfVLOduDi"
         (.ok
           (some
             { value := g!"LHT.djeMMoErRAsLuXLlDYZDGdodfVLOduDi", tokenId := g!"0123456789",
               tokenType := .refreshToken, status := .active,
               metadata := (some
                             { issuer := g!"http://127.0.0.1:8080",
                               audience := g!"mDuGcLjmamjNpLmYZMLIshFcXUDCNDcH",
                               scope := g!"openid profile email offline_access", issuedAt := 1,
                               notBefore := 2, expiresAt := 604801 }) })),
       .genAT (.ok g!"xtU.GvmXVrPVNqSnHjpZbEarIqOPAlfXfQpM"),
       .tkCreate g!"http://127.0.0.1:8080" (.ok ())] anon
      { accessToken := (some
                         { value := g!"xtU.GvmXVrPVNqSnHjpZbEarIqOPAlfXfQpM",
                           tokenType := .accessToken, status := .active,
                           metadata := (some
                                         { issuer := g!"http://127.0.0.1:8080",
                                           audience := g!"mDuGcLjmamjNpLmYZMLIshFcXUDCNDcH",
                                           scope := g!"openid profile email offline_access",
                                           issuedAt := 1, notBefore := 2, expiresAt := 3601 }) }) } := by decide +kernel

end Verif.Replay
