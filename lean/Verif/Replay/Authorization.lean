import Verif.Replay.Basic

/-! The tests of the authorization and device services, replayed on the model (see `Verif.Replay.Basic`). -/
namespace Verif.Replay

/-! ### `Test_service_validate` (server/services/authorization/service_internal_test.go) -/

-- line 55: nil
example :
    runs 0 (Authorization.validate env0 none) [] errorOf
      (some ⟨.invalidRequest, none⟩) := by decide +kernel

-- line 64: empty request
example :
    runs 0 (Authorization.validate env0 (some { })) [] errorOf
      (some ⟨.invalidRequest, none⟩) := by decide +kernel

-- line 73: missing scope
example :
    runs 0
      (Authorization.validate env0
        (some
          { audience := g!"mDuGcLjmamjNpLmYZMLIshFcXUDCNDcH", responseType := g!"code",
            clientId := g!"s6BhdRkqt3", state := g!"oESIiuoybVxAJ5fAKmxxM6s2CnVic6zU",
            nonce := g!"XDwbBH4MokU8BmrZ", redirectUri := g!"https://client.example.org/cb",
            codeChallenge := g!"K2-ltc83acc4h0c9w6ESC_rEMTJ3bww-uCHaoeK1t8U",
            codeChallengeMethod := g!"S256" })) [] errorOf
      (some ⟨.invalidRequest, some g!"oESIiuoybVxAJ5fAKmxxM6s2CnVic6zU"⟩) := by decide +kernel

-- line 91: missing response_type
example :
    runs 0
      (Authorization.validate env0
        (some
          { audience := g!"mDuGcLjmamjNpLmYZMLIshFcXUDCNDcH", scope := g!"openid profile email",
            clientId := g!"s6BhdRkqt3", state := g!"oESIiuoybVxAJ5fAKmxxM6s2CnVic6zU",
            nonce := g!"XDwbBH4MokU8BmrZ", redirectUri := g!"https://client.example.org/cb",
            codeChallenge := g!"K2-ltc83acc4h0c9w6ESC_rEMTJ3bww-uCHaoeK1t8U",
            codeChallengeMethod := g!"S256" })) [] errorOf
      (some ⟨.invalidRequest, some g!"oESIiuoybVxAJ5fAKmxxM6s2CnVic6zU"⟩) := by decide +kernel

-- line 109: missing client_id
example :
    runs 0
      (Authorization.validate env0
        (some
          { audience := g!"mDuGcLjmamjNpLmYZMLIshFcXUDCNDcH", responseType := g!"code",
            scope := g!"openid profile email", state := g!"oESIiuoybVxAJ5fAKmxxM6s2CnVic6zU",
            redirectUri := g!"https://client.example.org/cb", nonce := g!"XDwbBH4MokU8BmrZ",
            codeChallenge := g!"K2-ltc83acc4h0c9w6ESC_rEMTJ3bww-uCHaoeK1t8U",
            codeChallengeMethod := g!"S256" })) [] errorOf
      (some ⟨.invalidRequest, some g!"oESIiuoybVxAJ5fAKmxxM6s2CnVic6zU"⟩) := by decide +kernel

-- line 127: missing redirect_uri
example :
    runs 0
      (Authorization.validate env0
        (some
          { audience := g!"mDuGcLjmamjNpLmYZMLIshFcXUDCNDcH", responseType := g!"code",
            scope := g!"openid profile email", clientId := g!"s6BhdRkqt3",
            state := g!"oESIiuoybVxAJ5fAKmxxM6s2CnVic6zU", nonce := g!"XDwbBH4MokU8BmrZ",
            codeChallenge := g!"K2-ltc83acc4h0c9w6ESC_rEMTJ3bww-uCHaoeK1t8U",
            codeChallengeMethod := g!"S256" })) [] errorOf
      (some ⟨.invalidRequest, some g!"oESIiuoybVxAJ5fAKmxxM6s2CnVic6zU"⟩) := by decide +kernel

-- line 145: invalid redirect_uri
example :
    runs 0
      (Authorization.validate env0
        (some
          { audience := g!"mDuGcLjmamjNpLmYZMLIshFcXUDCNDcH", responseType := g!"code",
            scope := g!"openid profile email", clientId := g!"s6BhdRkqt3",
            state := g!"oESIiuoybVxAJ5fAKmxxM6s2CnVic6zU", nonce := g!"XDwbBH4MokU8BmrZ",
            redirectUri := g!"hi/there?",
            codeChallenge := g!"K2-ltc83acc4h0c9w6ESC_rEMTJ3bww-uCHaoeK1t8U",
            codeChallengeMethod := g!"S256" })) [] errorOf
      (some ⟨.invalidRequest, some g!"oESIiuoybVxAJ5fAKmxxM6s2CnVic6zU"⟩) := by decide +kernel

-- line 164: missing state
example :
    runs 0
      (Authorization.validate env0
        (some
          { audience := g!"mDuGcLjmamjNpLmYZMLIshFcXUDCNDcH", responseType := g!"code",
            scope := g!"openid profile email", clientId := g!"s6BhdRkqt3",
            redirectUri := g!"https://client.example.org/cb", nonce := g!"XDwbBH4MokU8BmrZ",
            codeChallenge := g!"K2-ltc83acc4h0c9w6ESC_rEMTJ3bww-uCHaoeK1t8U",
            codeChallengeMethod := g!"S256" })) [] errorOf
      (some ⟨.invalidRequest, none⟩) := by decide +kernel

-- line 182: state too short
example :
    runs 0
      (Authorization.validate env0
        (some
          { audience := g!"mDuGcLjmamjNpLmYZMLIshFcXUDCNDcH", responseType := g!"code",
            scope := g!"openid profile email", clientId := g!"s6BhdRkqt3",
            redirectUri := g!"https://client.example.org/cb", state := g!"oESIiuoybVxAJ",
            nonce := g!"XDwbBH4MokU8BmrZ",
            codeChallenge := g!"K2-ltc83acc4h0c9w6ESC_rEMTJ3bww-uCHaoeK1t8U",
            codeChallengeMethod := g!"S256" })) [] errorOf
      (some ⟨.invalidRequest, some g!"oESIiuoybVxAJ"⟩) := by decide +kernel

-- line 201: missing audience
example :
    runs 0
      (Authorization.validate env0
        (some
          { responseType := g!"code", scope := g!"openid profile email",
            clientId := g!"s6BhdRkqt3", state := g!"oESIiuoybVxAJ5fAKmxxM6s2CnVic6zU",
            nonce := g!"XDwbBH4MokU8BmrZ", redirectUri := g!"https://client.example.org/cb",
            codeChallenge := g!"K2-ltc83acc4h0c9w6ESC_rEMTJ3bww-uCHaoeK1t8U",
            codeChallengeMethod := g!"S256" })) [] errorOf
      (some ⟨.invalidRequest, some g!"oESIiuoybVxAJ5fAKmxxM6s2CnVic6zU"⟩) := by decide +kernel

-- line 219: missing nonce
example :
    runs 0
      (Authorization.validate env0
        (some
          { audience := g!"mDuGcLjmamjNpLmYZMLIshFcXUDCNDcH", responseType := g!"code",
            scope := g!"openid profile email", clientId := g!"s6BhdRkqt3",
            state := g!"oESIiuoybVxAJ5fAKmxxM6s2CnVic6zU",
            redirectUri := g!"https://client.example.org/cb",
            codeChallenge := g!"K2-ltc83acc4h0c9", codeChallengeMethod := g!"S256" })) [] errorOf
      (some ⟨.invalidRequest, some g!"oESIiuoybVxAJ5fAKmxxM6s2CnVic6zU"⟩) := by decide +kernel

-- line 237: nonce too short
example :
    runs 0
      (Authorization.validate env0
        (some
          { audience := g!"mDuGcLjmamjNpLmYZMLIshFcXUDCNDcH", responseType := g!"code",
            scope := g!"openid profile email", clientId := g!"s6BhdRkqt3",
            state := g!"oESIiuoybVxAJ5fAKmxxM6s2CnVic6zU", nonce := g!"XDwb",
            redirectUri := g!"https://client.example.org/cb",
            codeChallenge := g!"K2-ltc83acc4h0c9", codeChallengeMethod := g!"S256" })) [] errorOf
      (some ⟨.invalidRequest, some g!"oESIiuoybVxAJ5fAKmxxM6s2CnVic6zU"⟩) := by decide +kernel

-- line 256: missing code_challenge
example :
    runs 0
      (Authorization.validate env0
        (some
          { audience := g!"mDuGcLjmamjNpLmYZMLIshFcXUDCNDcH", responseType := g!"code",
            scope := g!"openid profile email", clientId := g!"s6BhdRkqt3",
            state := g!"oESIiuoybVxAJ5fAKmxxM6s2CnVic6zU", nonce := g!"XDwbBH4MokU8BmrZ",
            redirectUri := g!"https://client.example.org/cb", codeChallengeMethod := g!"S256" })) []
      errorOf (some ⟨.invalidRequest, some g!"oESIiuoybVxAJ5fAKmxxM6s2CnVic6zU"⟩) := by decide +kernel

-- line 274: code_challenge too short
example :
    runs 0
      (Authorization.validate env0
        (some
          { audience := g!"mDuGcLjmamjNpLmYZMLIshFcXUDCNDcH", responseType := g!"code",
            scope := g!"openid profile email", clientId := g!"s6BhdRkqt3",
            state := g!"oESIiuoybVxAJ5fAKmxxM6s2CnVic6zU", nonce := g!"XDwbBH4MokU8BmrZ",
            redirectUri := g!"https://client.example.org/cb",
            codeChallenge := g!"K2-ltc83acc4h0c9", codeChallengeMethod := g!"S256" })) [] errorOf
      (some ⟨.invalidRequest, some g!"oESIiuoybVxAJ5fAKmxxM6s2CnVic6zU"⟩) := by decide +kernel

-- line 293: missing code_challenge_method
example :
    runs 0
      (Authorization.validate env0
        (some
          { audience := g!"mDuGcLjmamjNpLmYZMLIshFcXUDCNDcH", responseType := g!"code",
            scope := g!"openid profile email", clientId := g!"s6BhdRkqt3",
            state := g!"oESIiuoybVxAJ5fAKmxxM6s2CnVic6zU", nonce := g!"XDwbBH4MokU8BmrZ",
            redirectUri := g!"https://client.example.org/cb",
            codeChallenge := g!"K2-ltc83acc4h0c9w6ESC_rEMTJ3bww-uCHaoeK1t8U" })) [] errorOf
      (some ⟨.invalidRequest, some g!"oESIiuoybVxAJ5fAKmxxM6s2CnVic6zU"⟩) := by decide +kernel

-- line 311: unsupported code_challenge_method
example :
    runs 0
      (Authorization.validate env0
        (some
          { audience := g!"mDuGcLjmamjNpLmYZMLIshFcXUDCNDcH", responseType := g!"code",
            scope := g!"openid profile email", clientId := g!"s6BhdRkqt3",
            state := g!"oESIiuoybVxAJ5fAKmxxM6s2CnVic6zU", nonce := g!"XDwbBH4MokU8BmrZ",
            redirectUri := g!"https://client.example.org/cb",
            codeChallenge := g!"K2-ltc83acc4h0c9w6ESC_rEMTJ3bww-uCHaoeK1t8U",
            codeChallengeMethod := g!"B385" })) [] errorOf
      (some ⟨.invalidRequest, some g!"oESIiuoybVxAJ5fAKmxxM6s2CnVic6zU"⟩) := by decide +kernel

-- line 330: unsupported response_mode
example :
    runs 0
      (Authorization.validate env0
        (some
          { audience := g!"mDuGcLjmamjNpLmYZMLIshFcXUDCNDcH", responseType := g!"code",
            scope := g!"openid profile email", clientId := g!"s6BhdRkqt3",
            state := g!"oESIiuoybVxAJ5fAKmxxM6s2CnVic6zU", nonce := g!"XDwbBH4MokU8BmrZ",
            redirectUri := g!"https://client.example.org/cb", responseMode := (some g!"test"),
            codeChallenge := g!"K2-ltc83acc4h0c9w6ESC_rEMTJ3bww-uCHaoeK1t8U",
            codeChallengeMethod := g!"S256" })) [] errorOf
      (some ⟨.invalidRequest, some g!"oESIiuoybVxAJ5fAKmxxM6s2CnVic6zU"⟩) := by decide +kernel

-- line 350: error client not found
example :
    runs 0
      (Authorization.validate env0
        (some
          { audience := g!"mDuGcLjmamjNpLmYZMLIshFcXUDCNDcH", responseType := g!"code",
            scope := g!"openid profile email", clientId := g!"s6BhdRkqt3",
            state := g!"oESIiuoybVxAJ5fAKmxxM6s2CnVic6zU", nonce := g!"XDwbBH4MokU8BmrZ",
            redirectUri := g!"https://client.example.org/cb",
            codeChallenge := g!"K2-ltc83acc4h0c9w6ESC_rEMTJ3bww-uCHaoeK1t8U",
            codeChallengeMethod := g!"S256" })) [.clientsGet g!"s6BhdRkqt3" (.error .notFound)]
      errorOf (some ⟨.invalidRequest, some g!"oESIiuoybVxAJ5fAKmxxM6s2CnVic6zU"⟩) := by decide +kernel

-- line 372: error client storage error
example :
    runs 0
      (Authorization.validate env0
        (some
          { audience := g!"mDuGcLjmamjNpLmYZMLIshFcXUDCNDcH", responseType := g!"code",
            scope := g!"openid profile email", clientId := g!"s6BhdRkqt3",
            state := g!"oESIiuoybVxAJ5fAKmxxM6s2CnVic6zU", nonce := g!"XDwbBH4MokU8BmrZ",
            redirectUri := g!"https://client.example.org/cb",
            codeChallenge := g!"K2-ltc83acc4h0c9w6ESC_rEMTJ3bww-uCHaoeK1t8U",
            codeChallengeMethod := g!"S256" })) [.clientsGet g!"s6BhdRkqt3" (.error .other)] errorOf
      (some ⟨.serverError, some g!"oESIiuoybVxAJ5fAKmxxM6s2CnVic6zU"⟩) := by decide +kernel

-- line 394: client don't support authorization code
example :
    runs 0
      (Authorization.validate env0
        (some
          { audience := g!"mDuGcLjmamjNpLmYZMLIshFcXUDCNDcH", responseType := g!"code",
            scope := g!"openid profile email", clientId := g!"s6BhdRkqt3",
            state := g!"oESIiuoybVxAJ5fAKmxxM6s2CnVic6zU", nonce := g!"XDwbBH4MokU8BmrZ",
            redirectUri := g!"https://client.example.org/cb",
            codeChallenge := g!"K2-ltc83acc4h0c9w6ESC_rEMTJ3bww-uCHaoeK1t8U",
            codeChallengeMethod := g!"S256" }))
      [.clientsGet g!"s6BhdRkqt3"
         (.ok (some { grantTypes := [g!"client_credentials"], clientId := [] }))] errorOf
      (some ⟨.unsupportedGrantType, some g!"oESIiuoybVxAJ5fAKmxxM6s2CnVic6zU"⟩) := by decide +kernel

-- line 418: client don't support code response_type
example :
    runs 0
      (Authorization.validate env0
        (some
          { audience := g!"mDuGcLjmamjNpLmYZMLIshFcXUDCNDcH", responseType := g!"code",
            scope := g!"openid profile email", clientId := g!"s6BhdRkqt3",
            state := g!"oESIiuoybVxAJ5fAKmxxM6s2CnVic6zU", nonce := g!"XDwbBH4MokU8BmrZ",
            redirectUri := g!"https://client.example.org/cb",
            codeChallenge := g!"K2-ltc83acc4h0c9w6ESC_rEMTJ3bww-uCHaoeK1t8U",
            codeChallengeMethod := g!"S256" }))
      [.clientsGet g!"s6BhdRkqt3"
         (.ok
           (some
             { grantTypes := [g!"authorization_code"], responseTypes := [g!"id_token"],
               clientId := [] }))] errorOf
      (some ⟨.invalidRequest, some g!"oESIiuoybVxAJ5fAKmxxM6s2CnVic6zU"⟩) := by decide +kernel

-- line 443: client invalid redirect_uri
example :
    runs 0
      (Authorization.validate env0
        (some
          { audience := g!"mDuGcLjmamjNpLmYZMLIshFcXUDCNDcH", responseType := g!"code",
            scope := g!"openid profile email", clientId := g!"s6BhdRkqt3",
            state := g!"oESIiuoybVxAJ5fAKmxxM6s2CnVic6zU", nonce := g!"XDwbBH4MokU8BmrZ",
            redirectUri := g!"https://client.example.org/cb",
            codeChallenge := g!"K2-ltc83acc4h0c9w6ESC_rEMTJ3bww-uCHaoeK1t8U",
            codeChallengeMethod := g!"S256" }))
      [.clientsGet g!"s6BhdRkqt3"
         (.ok
           (some
             { grantTypes := [g!"authorization_code"], responseTypes := [g!"code"],
               redirectUris := [g!"http://foo.com"], clientId := [] }))] errorOf
      (some ⟨.invalidRequest, some g!"oESIiuoybVxAJ5fAKmxxM6s2CnVic6zU"⟩) := by decide +kernel

-- line 469: client doesn't support response_mode
example :
    runs 0
      (Authorization.validate env0
        (some
          { audience := g!"mDuGcLjmamjNpLmYZMLIshFcXUDCNDcH", responseType := g!"code",
            scope := g!"openid profile email", clientId := g!"s6BhdRkqt3",
            state := g!"oESIiuoybVxAJ5fAKmxxM6s2CnVic6zU", nonce := g!"XDwbBH4MokU8BmrZ",
            redirectUri := g!"https://client.example.org/cb",
            codeChallenge := g!"K2-ltc83acc4h0c9w6ESC_rEMTJ3bww-uCHaoeK1t8U",
            codeChallengeMethod := g!"S256", responseMode := (some g!"query.jwt") }))
      [.clientsGet g!"s6BhdRkqt3"
         (.ok
           (some
             { grantTypes := [g!"authorization_code"], responseTypes := [g!"code"],
               redirectUris := [g!"https://client.example.org/cb"], responseModes := [g!"query"],
               clientId := [] }))] errorOf
      (some ⟨.invalidRequest, some g!"oESIiuoybVxAJ5fAKmxxM6s2CnVic6zU"⟩) := by decide +kernel

-- line 498: valid : application uri
example :
    runs 0
      (Authorization.validate env0
        (some
          { audience := g!"mDuGcLjmamjNpLmYZMLIshFcXUDCNDcH", responseType := g!"code",
            scope := g!"openid profile email offline_access", clientId := g!"s6BhdRkqt3",
            state := g!"oESIiuoybVxAJ5fAKmxxM6s2CnVic6zU", nonce := g!"XDwbBH4MokU8BmrZ",
            redirectUri := g!"com.example.app:/oauth2redirect",
            codeChallenge := g!"K2-ltc83acc4h0c9w6ESC_rEMTJ3bww-uCHaoeK1t8U",
            codeChallengeMethod := g!"S256", prompt := (some g!"consent") }))
      [.clientsGet g!"s6BhdRkqt3"
         (.ok
           (some
             { grantTypes := [g!"authorization_code"], responseTypes := [g!"code"],
               redirectUris := [g!"com.example.app:/oauth2redirect"], clientId := [] }))] errorOf
      none := by decide +kernel

-- line 525: valid
example :
    runs 0
      (Authorization.validate env0
        (some
          { audience := g!"mDuGcLjmamjNpLmYZMLIshFcXUDCNDcH", responseType := g!"code",
            scope := g!"openid profile email offline_access", clientId := g!"s6BhdRkqt3",
            state := g!"oESIiuoybVxAJ5fAKmxxM6s2CnVic6zU", nonce := g!"XDwbBH4MokU8BmrZ",
            redirectUri := g!"https://client.example.org/cb",
            codeChallenge := g!"K2-ltc83acc4h0c9w6ESC_rEMTJ3bww-uCHaoeK1t8U",
            codeChallengeMethod := g!"S256", prompt := (some g!"consent") }))
      [.clientsGet g!"s6BhdRkqt3"
         (.ok
           (some
             { grantTypes := [g!"authorization_code"], responseTypes := [g!"code"],
               redirectUris := [g!"https://client.example.org/cb"], clientId := [] }))] errorOf
      none := by decide +kernel

/-! ### `Test_service_Authorize` (server/services/authorization/service_test.go) -/

-- line 52: nil
example :
    runs 0 (Authorization.authorize env0 none) [] id
      { error := (some ⟨.invalidRequest, none⟩), goErr := true } := by decide +kernel

-- line 63: nil request
example :
    runs 0 (Authorization.authorize env0 (some { request := none, issuer := [], subject := [] })) []
      id { error := (some ⟨.invalidRequest, none⟩), goErr := true } := by decide +kernel

-- line 76: empty issuer
example :
    runs 0
      (Authorization.authorize env0
        (some
          { issuer := [], subject := g!"foo",
            request := (some
                         { requestUri := (some
                                           g!"urn:solid:AAAAAAAAAAAAAAAAAAAAAAAAAAAAAAAA") }) })) []
      id { error := (some ⟨.invalidRequest, none⟩), goErr := true } := by decide +kernel

-- line 93: empty subject
example :
    runs 0
      (Authorization.authorize env0
        (some
          { issuer := g!"https://honest.as.example", subject := [],
            request := (some
                         { requestUri := (some
                                           g!"urn:solid:AAAAAAAAAAAAAAAAAAAAAAAAAAAAAAAA") }) })) []
      id { error := (some ⟨.invalidRequest, none⟩), goErr := true } := by decide +kernel

-- line 110: with invalid request_uri
example :
    runs 0
      (Authorization.authorize env0
        (some
          { issuer := g!"https://honest.as.example", subject := g!"foo",
            request := (some { requestUri := (some g!"123-456-789") }) })) [] id
      { error := (some ⟨.invalidRequest, none⟩), goErr := true } := by decide +kernel

-- line 130: with request_uri not found error
example :
    runs 0
      (Authorization.authorize
        (env
          (fun i u => i == g!"https://honest.as.example" && u ==
            g!"urn:solid:AAAAAAAAAAAAAAAAAAAAAAAAAAAAAAAA"))
        (some
          { issuer := g!"https://honest.as.example", subject := g!"foo",
            request := (some
                         { requestUri := (some
                                           g!"urn:solid:AAAAAAAAAAAAAAAAAAAAAAAAAAAAAAAA") }) }))
      [.arGet g!"https://honest.as.example" g!"urn:solid:AAAAAAAAAAAAAAAAAAAAAAAAAAAAAAAA"
         (.error .notFound)] id
      { error := (some ⟨.invalidRequest, none⟩), goErr := true } := by decide +kernel

-- line 151: with request_uri storage error
example :
    runs 0
      (Authorization.authorize
        (env
          (fun i u => i == g!"https://honest.as.example" && u ==
            g!"urn:solid:AAAAAAAAAAAAAAAAAAAAAAAAAAAAAAAA"))
        (some
          { issuer := g!"https://honest.as.example", subject := g!"foo",
            request := (some
                         { requestUri := (some
                                           g!"urn:solid:AAAAAAAAAAAAAAAAAAAAAAAAAAAAAAAA") }) }))
      [.arGet g!"https://honest.as.example" g!"urn:solid:AAAAAAAAAAAAAAAAAAAAAAAAAAAAAAAA"
         (.error .other)] id
      { error := (some ⟨.serverError, none⟩), goErr := true } := by decide +kernel

-- line 172: with request_uri exist with not found error during deletion
example :
    runs 0
      (Authorization.authorize
        (env
          (fun i u => i == g!"https://honest.as.example" && u ==
            g!"urn:solid:AAAAAAAAAAAAAAAAAAAAAAAAAAAAAAAA"))
        (some
          { issuer := g!"https://honest.as.example", subject := g!"foo",
            request := (some
                         { requestUri := (some
                                           g!"urn:solid:AAAAAAAAAAAAAAAAAAAAAAAAAAAAAAAA") }) }))
      [.arGet g!"https://honest.as.example" g!"urn:solid:AAAAAAAAAAAAAAAAAAAAAAAAAAAAAAAA"
         (.ok (some { })),
       .arDel g!"https://honest.as.example" g!"urn:solid:AAAAAAAAAAAAAAAAAAAAAAAAAAAAAAAA"
         (.error .notFound)] id
      { error := (some ⟨.invalidRequest, none⟩), goErr := true } := by decide +kernel

-- line 194: with request_uri exist but deletion error
example :
    runs 0
      (Authorization.authorize
        (env
          (fun i u => i == g!"https://honest.as.example" && u ==
            g!"urn:solid:AAAAAAAAAAAAAAAAAAAAAAAAAAAAAAAA"))
        (some
          { issuer := g!"https://honest.as.example", subject := g!"foo",
            request := (some
                         { requestUri := (some
                                           g!"urn:solid:AAAAAAAAAAAAAAAAAAAAAAAAAAAAAAAA") }) }))
      [.arGet g!"https://honest.as.example" g!"urn:solid:AAAAAAAAAAAAAAAAAAAAAAAAAAAAAAAA"
         (.ok (some { })),
       .arDel g!"https://honest.as.example" g!"urn:solid:AAAAAAAAAAAAAAAAAAAAAAAAAAAAAAAA"
         (.error .other)] id
      { error := (some ⟨.serverError, none⟩), goErr := true } := by decide +kernel

-- line 216: authorization code generation error
example :
    runs 0
      (Authorization.authorize env0
        (some
          { issuer := g!"https://honest.as.example", subject := g!"foo",
            request := (some
                         { audience := g!"mDuGcLjmamjNpLmYZMLIshFcXUDCNDcH",
                           responseType := g!"code", scope := g!"openid profile email",
                           clientId := g!"s6BhdRkqt3",
                           state := g!"oESIiuoybVxAJ5fAKmxxM6s2CnVic6zU",
                           nonce := g!"XDwbBH4MokU8BmrZ",
                           redirectUri := g!"https://client.example.org/cb",
                           codeChallenge := g!"K2-ltc83acc4h0c9w6ESC_rEMTJ3bww-uCHaoeK1t8U",
                           codeChallengeMethod := g!"S256" }) }))
      [.clientsGet g!"s6BhdRkqt3"
         (.ok
           (some
             { grantTypes := [g!"authorization_code"], responseTypes := [g!"code"],
               redirectUris := [g!"https://client.example.org/cb"], clientId := [] })),
       .genCode g!"https://honest.as.example" (.error .other)] id
      { error := (some ⟨.serverError, some g!"oESIiuoybVxAJ5fAKmxxM6s2CnVic6zU"⟩), goErr := true } := by decide +kernel

-- line 249: authorization session registration error
example :
    runs 0
      (Authorization.authorize env0
        (some
          { issuer := g!"https://honest.as.example", subject := g!"foo",
            request := (some
                         { audience := g!"mDuGcLjmamjNpLmYZMLIshFcXUDCNDcH",
                           responseType := g!"code", scope := g!"openid profile email",
                           clientId := g!"s6BhdRkqt3",
                           state := g!"oESIiuoybVxAJ5fAKmxxM6s2CnVic6zU",
                           nonce := g!"XDwbBH4MokU8BmrZ",
                           redirectUri := g!"https://client.example.org/cb",
                           codeChallenge := g!"K2-ltc83acc4h0c9w6ESC_rEMTJ3bww-uCHaoeK1t8U",
                           codeChallengeMethod := g!"S256" }) }))
      [.clientsGet g!"s6BhdRkqt3"
         (.ok
           (some
             { grantTypes := [g!"authorization_code"], responseTypes := [g!"code"],
               redirectUris := [g!"https://client.example.org/cb"], clientId := [] })),
       .genCode g!"https://honest.as.example"
         (.ok g!"owtjMpUVdrGsn0FPPDTzC0sXWWl3btIYPQC2NGowzNVKeB35EC4RG1ZhLy2OtUT"),
       .csReg none none none (.error .other)] id
      { error := (some ⟨.serverError, some g!"oESIiuoybVxAJ5fAKmxxM6s2CnVic6zU"⟩), goErr := true } := by decide +kernel

-- line 283: offline_access scope with nil prompt
example :
    runs 0
      (Authorization.authorize env0
        (some
          { issuer := g!"https://honest.as.example", subject := g!"foo",
            request := (some
                         { audience := g!"mDuGcLjmamjNpLmYZMLIshFcXUDCNDcH",
                           responseType := g!"code",
                           scope := g!"openid profile email offline_access",
                           clientId := g!"s6BhdRkqt3",
                           state := g!"oESIiuoybVxAJ5fAKmxxM6s2CnVic6zU",
                           nonce := g!"XDwbBH4MokU8BmrZ",
                           redirectUri := g!"https://client.example.org/cb",
                           codeChallenge := g!"K2-ltc83acc4h0c9w6ESC_rEMTJ3bww-uCHaoeK1t8U",
                           codeChallengeMethod := g!"S256", prompt := none }) }))
      [.clientsGet g!"s6BhdRkqt3"
         (.ok
           (some
             { grantTypes := [g!"authorization_code"], responseTypes := [g!"code"],
               redirectUris := [g!"https://client.example.org/cb"], clientId := [] })),
       .genCode g!"https://honest.as.example"
         (.ok g!"owtjMpUVdrGsn0FPPDTzC0sXWWl3btIYPQC2NGowzNVKeB35EC4RG1ZhLy2OtUT"),
       .csReg none none
         (some
           { issuer := g!"https://honest.as.example", subject := g!"foo",
             request := (some
                          { audience := g!"mDuGcLjmamjNpLmYZMLIshFcXUDCNDcH",
                            responseType := g!"code", scope := g!"openid profile email",
                            clientId := g!"s6BhdRkqt3",
                            state := g!"oESIiuoybVxAJ5fAKmxxM6s2CnVic6zU",
                            nonce := g!"XDwbBH4MokU8BmrZ",
                            redirectUri := g!"https://client.example.org/cb",
                            codeChallenge := g!"K2-ltc83acc4h0c9w6ESC_rEMTJ3bww-uCHaoeK1t8U",
                            codeChallengeMethod := g!"S256", prompt := none }) }) (.ok 60)] id
      { error := none, code := g!"owtjMpUVdrGsn0FPPDTzC0sXWWl3btIYPQC2NGowzNVKeB35EC4RG1ZhLy2OtUT",
        state := g!"oESIiuoybVxAJ5fAKmxxM6s2CnVic6zU",
        redirectUri := g!"https://client.example.org/cb", clientId := g!"s6BhdRkqt3",
        expiresIn := 60, issuer := g!"https://honest.as.example" } := by decide +kernel

-- line 339: offline_access scope with invalid prompt
example :
    runs 0
      (Authorization.authorize env0
        (some
          { issuer := g!"https://honest.as.example", subject := g!"foo",
            request := (some
                         { audience := g!"mDuGcLjmamjNpLmYZMLIshFcXUDCNDcH",
                           responseType := g!"code",
                           scope := g!"openid profile email offline_access",
                           clientId := g!"s6BhdRkqt3",
                           state := g!"oESIiuoybVxAJ5fAKmxxM6s2CnVic6zU",
                           nonce := g!"XDwbBH4MokU8BmrZ",
                           redirectUri := g!"https://client.example.org/cb",
                           codeChallenge := g!"K2-ltc83acc4h0c9w6ESC_rEMTJ3bww-uCHaoeK1t8U",
                           codeChallengeMethod := g!"S256", prompt := (some g!"login") }) }))
      [.clientsGet g!"s6BhdRkqt3"
         (.ok
           (some
             { grantTypes := [g!"authorization_code"], responseTypes := [g!"code"],
               redirectUris := [g!"https://client.example.org/cb"], clientId := [] })),
       .genCode g!"https://honest.as.example"
         (.ok g!"owtjMpUVdrGsn0FPPDTzC0sXWWl3btIYPQC2NGowzNVKeB35EC4RG1ZhLy2OtUT"),
       .csReg none none
         (some
           { issuer := g!"https://honest.as.example", subject := g!"foo",
             request := (some
                          { audience := g!"mDuGcLjmamjNpLmYZMLIshFcXUDCNDcH",
                            responseType := g!"code", scope := g!"openid profile email",
                            clientId := g!"s6BhdRkqt3",
                            state := g!"oESIiuoybVxAJ5fAKmxxM6s2CnVic6zU",
                            nonce := g!"XDwbBH4MokU8BmrZ",
                            redirectUri := g!"https://client.example.org/cb",
                            codeChallenge := g!"K2-ltc83acc4h0c9w6ESC_rEMTJ3bww-uCHaoeK1t8U",
                            codeChallengeMethod := g!"S256", prompt := (some g!"login") }) })
         (.ok 60)] id
      { error := none, code := g!"owtjMpUVdrGsn0FPPDTzC0sXWWl3btIYPQC2NGowzNVKeB35EC4RG1ZhLy2OtUT",
        state := g!"oESIiuoybVxAJ5fAKmxxM6s2CnVic6zU",
        redirectUri := g!"https://client.example.org/cb", clientId := g!"s6BhdRkqt3",
        expiresIn := 60, issuer := g!"https://honest.as.example" } := by decide +kernel

-- line 395: with invalid request
example :
    runs 0
      (Authorization.authorize
        (env
          (fun i u => i == g!"https://honest.as.example" && u ==
            g!"urn:solid:AAAAAAAAAAAAAAAAAAAAAAAAAAAAAAAA"))
        (some
          { issuer := g!"https://honest.as.example", subject := g!"foo",
            request := (some
                         { requestUri := (some
                                           g!"urn:solid:AAAAAAAAAAAAAAAAAAAAAAAAAAAAAAAA") }) }))
      [.arGet g!"https://honest.as.example" g!"urn:solid:AAAAAAAAAAAAAAAAAAAAAAAAAAAAAAAA"
         (.ok
           (some
             { audience := g!"mDuGcLjmamjNpLmYZMLIshFcXUDCNDcH", responseType := g!"code",
               scope := g!"openid profile email offline_access", clientId := g!"s6BhdRkqt3",
               state := g!"oESIiuoybVxAJ5fAKmxxM6s2CnVic6zU", nonce := g!"XDwbBH4MokU8BmrZ",
               redirectUri := g!"https://client.example.org/cb", codeChallengeMethod := g!"S256",
               prompt := (some g!"consent") })),
       .arDel g!"https://honest.as.example" g!"urn:solid:AAAAAAAAAAAAAAAAAAAAAAAAAAAAAAAA"
         (.ok ())] id
      { error := (some ⟨.invalidRequest, some g!"oESIiuoybVxAJ5fAKmxxM6s2CnVic6zU"⟩),
        goErr := true } := by decide +kernel

-- line 428: with valid request_uri exist
example :
    runs 0
      (Authorization.authorize
        (env
          (fun i u => i == g!"https://honest.as.example" && u ==
            g!"urn:solid:Jny1CLd0EZAD0tNnDsmR56gVPhsKk9ac"))
        (some
          { issuer := g!"https://honest.as.example", subject := g!"foo",
            request := (some
                         { requestUri := (some
                                           g!"urn:solid:Jny1CLd0EZAD0tNnDsmR56gVPhsKk9ac") }) }))
      [.arGet g!"https://honest.as.example" g!"urn:solid:Jny1CLd0EZAD0tNnDsmR56gVPhsKk9ac"
         (.ok
           (some
             { audience := g!"mDuGcLjmamjNpLmYZMLIshFcXUDCNDcH", responseType := g!"code",
               scope := g!"openid profile email offline_access", clientId := g!"s6BhdRkqt3",
               state := g!"oESIiuoybVxAJ5fAKmxxM6s2CnVic6zU", nonce := g!"XDwbBH4MokU8BmrZ",
               redirectUri := g!"https://client.example.org/cb",
               codeChallenge := g!"K2-ltc83acc4h0c9w6ESC_rEMTJ3bww-uCHaoeK1t8U",
               codeChallengeMethod := g!"S256", prompt := (some g!"consent") })),
       .arDel g!"https://honest.as.example" g!"urn:solid:Jny1CLd0EZAD0tNnDsmR56gVPhsKk9ac" (.ok ()),
       .clientsGet g!"s6BhdRkqt3"
         (.ok
           (some
             { grantTypes := [g!"authorization_code"], responseTypes := [g!"code"],
               redirectUris := [g!"https://client.example.org/cb"], clientId := [] })),
       .genCode g!"https://honest.as.example"
         (.ok g!"owtjMpUVdrGsn0FPPDTzC0sXWWl3btIYPQC2NGowzNVKeB35EC4RG1ZhLy2OtUT"),
       .csReg none none
         (some
           { issuer := g!"https://honest.as.example", subject := g!"foo",
             request := (some
                          { audience := g!"mDuGcLjmamjNpLmYZMLIshFcXUDCNDcH",
                            responseType := g!"code",
                            scope := g!"openid profile email offline_access",
                            clientId := g!"s6BhdRkqt3",
                            state := g!"oESIiuoybVxAJ5fAKmxxM6s2CnVic6zU",
                            nonce := g!"XDwbBH4MokU8BmrZ",
                            redirectUri := g!"https://client.example.org/cb",
                            codeChallenge := g!"K2-ltc83acc4h0c9w6ESC_rEMTJ3bww-uCHaoeK1t8U",
                            codeChallengeMethod := g!"S256", prompt := (some g!"consent") }) })
         (.ok 60)] id
      { error := none, code := g!"owtjMpUVdrGsn0FPPDTzC0sXWWl3btIYPQC2NGowzNVKeB35EC4RG1ZhLy2OtUT",
        state := g!"oESIiuoybVxAJ5fAKmxxM6s2CnVic6zU",
        redirectUri := g!"https://client.example.org/cb", clientId := g!"s6BhdRkqt3",
        expiresIn := 60, issuer := g!"https://honest.as.example" } := by decide +kernel

/-! ### `Test_service_Register` (server/services/authorization/service_test.go) -/

-- line 570: nil request
example :
    runs 0 (Authorization.register env0 none) [] id
      { error := (some ⟨.invalidRequest, none⟩), goErr := true } := by decide +kernel

-- line 581: empty request
example :
    runs 0 (Authorization.register env0 (some { issuer := [], client := none, request := none })) []
      id { error := (some ⟨.invalidRequest, none⟩), goErr := true } := by decide +kernel

-- line 592: empty issuer
example :
    runs 0 (Authorization.register env0 (some { issuer := [], client := none, request := none })) []
      id { error := (some ⟨.invalidRequest, none⟩), goErr := true } := by decide +kernel

-- line 605: nil client
example :
    runs 0
      (Authorization.register env0
        (some { issuer := g!"https://honest.as.example", client := none, request := none })) [] id
      { error := (some ⟨.invalidRequest, none⟩), goErr := true } := by decide +kernel

-- line 619: nil authorization request
example :
    runs 0
      (Authorization.register env0
        (some
          { issuer := g!"https://honest.as.example", client := (some { clientId := [] }),
            request := none })) [] id
      { error := (some ⟨.invalidRequest, none⟩), goErr := true } := by decide +kernel

-- line 634: empty authorization request
example :
    runs 0
      (Authorization.register env0
        (some
          { issuer := g!"https://honest.as.example", client := (some { clientId := [] }),
            request := (some { }) })) [] id
      { error := (some ⟨.invalidRequest, none⟩), goErr := true } := by decide +kernel

-- line 649: nested authorization request
example :
    runs 0
      (Authorization.register env0
        (some
          { issuer := g!"https://honest.as.example", client := (some { clientId := [] }),
            request := (some { requestUri := (some g!"1234567890") }) })) [] id
      { error := (some ⟨.invalidRequest, none⟩), goErr := true } := by decide +kernel

-- line 666: invalid request
example :
    runs 0
      (Authorization.register env0
        (some
          { issuer := g!"https://honest.as.example",
            client := (some { clientId := g!"s6BhdRkqt3" }),
            request := (some
                         { audience := g!"mDuGcLjmamjNpLmYZMLIshFcXUDCNDcH",
                           responseType := g!"code", scope := g!"openid profile email",
                           clientId := g!"s6BhdRkqt3",
                           state := g!"oESIiuoybVxAJ5fAKmxxM6s2CnVic6zU",
                           nonce := g!"XDwbBH4MokU8BmrZ",
                           redirectUri := g!"https://client.example.org/cb",
                           codeChallenge := g!"K2-ltc83acc4h0c9w6ESC_rEMTJ3bww-uCHaoeK1t8U",
                           codeChallengeMethod := g!"S256" }) }))
      [.clientsGet g!"s6BhdRkqt3"
         (.ok (some { clientId := g!"s6BhdRkqt3", grantTypes := [g!"client_credentials"] }))] id
      { error := (some ⟨.unsupportedGrantType, some g!"oESIiuoybVxAJ5fAKmxxM6s2CnVic6zU"⟩),
        goErr := true } := by decide +kernel

-- line 699: client_id mismatch
example :
    runs 0
      (Authorization.register env0
        (some
          { issuer := g!"https://honest.as.example", client := (some { clientId := g!"foooo" }),
            request := (some
                         { audience := g!"mDuGcLjmamjNpLmYZMLIshFcXUDCNDcH",
                           responseType := g!"code",
                           scope := g!"openid profile email offline_access",
                           clientId := g!"s6BhdRkqt3",
                           state := g!"oESIiuoybVxAJ5fAKmxxM6s2CnVic6zU",
                           nonce := g!"XDwbBH4MokU8BmrZ",
                           redirectUri := g!"https://client.example.org/cb",
                           codeChallenge := g!"K2-ltc83acc4h0c9w6ESC_rEMTJ3bww-uCHaoeK1t8U",
                           codeChallengeMethod := g!"S256", prompt := (some g!"consent") }) }))
      [.clientsGet g!"s6BhdRkqt3"
         (.ok
           (some
             { clientId := g!"s6BhdRkqt3", grantTypes := [g!"authorization_code"],
               responseTypes := [g!"code"], redirectUris := [g!"https://client.example.org/cb"] }))]
      id { error := (some ⟨.invalidRequest, none⟩), goErr := true } := by decide +kernel

-- line 735: error while generating uri
example :
    runs 0
      (Authorization.register env0
        (some
          { issuer := g!"https://honest.as.example",
            client := (some { clientId := g!"s6BhdRkqt3" }),
            request := (some
                         { audience := g!"mDuGcLjmamjNpLmYZMLIshFcXUDCNDcH",
                           responseType := g!"code",
                           scope := g!"openid profile email offline_access",
                           clientId := g!"s6BhdRkqt3",
                           state := g!"oESIiuoybVxAJ5fAKmxxM6s2CnVic6zU",
                           nonce := g!"XDwbBH4MokU8BmrZ",
                           redirectUri := g!"https://client.example.org/cb",
                           codeChallenge := g!"K2-ltc83acc4h0c9w6ESC_rEMTJ3bww-uCHaoeK1t8U",
                           codeChallengeMethod := g!"S256", prompt := (some g!"consent") }) }))
      [.clientsGet g!"s6BhdRkqt3"
         (.ok
           (some
             { clientId := g!"s6BhdRkqt3", grantTypes := [g!"authorization_code"],
               responseTypes := [g!"code"], redirectUris := [g!"https://client.example.org/cb"] })),
       .genUri g!"https://honest.as.example" (.error .other)] id
      { error := (some ⟨.serverError, none⟩), goErr := true } := by decide +kernel

-- line 772: error while registering the request
example :
    runs 0
      (Authorization.register env0
        (some
          { issuer := g!"https://honest.as.example",
            client := (some { clientId := g!"s6BhdRkqt3" }),
            request := (some
                         { audience := g!"mDuGcLjmamjNpLmYZMLIshFcXUDCNDcH",
                           responseType := g!"code",
                           scope := g!"openid profile email offline_access",
                           clientId := g!"s6BhdRkqt3",
                           state := g!"oESIiuoybVxAJ5fAKmxxM6s2CnVic6zU",
                           nonce := g!"XDwbBH4MokU8BmrZ",
                           redirectUri := g!"https://client.example.org/cb",
                           codeChallenge := g!"K2-ltc83acc4h0c9w6ESC_rEMTJ3bww-uCHaoeK1t8U",
                           codeChallengeMethod := g!"S256", prompt := (some g!"consent") }) }))
      [.clientsGet g!"s6BhdRkqt3"
         (.ok
           (some
             { clientId := g!"s6BhdRkqt3", grantTypes := [g!"authorization_code"],
               responseTypes := [g!"code"], redirectUris := [g!"https://client.example.org/cb"] })),
       .genUri g!"https://honest.as.example" (.ok g!"urn:solid:Jny1CLd0EZAD0tNnDsmR56gVPhsKk9ac"),
       .arReg g!"https://honest.as.example" none
         (some
           { audience := g!"mDuGcLjmamjNpLmYZMLIshFcXUDCNDcH", responseType := g!"code",
             scope := g!"openid profile email offline_access", clientId := g!"s6BhdRkqt3",
             state := g!"oESIiuoybVxAJ5fAKmxxM6s2CnVic6zU", nonce := g!"XDwbBH4MokU8BmrZ",
             redirectUri := g!"https://client.example.org/cb",
             codeChallenge := g!"K2-ltc83acc4h0c9w6ESC_rEMTJ3bww-uCHaoeK1t8U",
             codeChallengeMethod := g!"S256", prompt := (some g!"consent") }) (.error .other)] id
      { error := (some ⟨.serverError, none⟩), goErr := true } := by decide +kernel

-- line 821: valid
example :
    runs 0
      (Authorization.register env0
        (some
          { issuer := g!"https://honest.as.example",
            client := (some { clientId := g!"s6BhdRkqt3" }),
            request := (some
                         { audience := g!"mDuGcLjmamjNpLmYZMLIshFcXUDCNDcH",
                           responseType := g!"code",
                           scope := g!"openid profile email offline_access",
                           clientId := g!"s6BhdRkqt3",
                           state := g!"oESIiuoybVxAJ5fAKmxxM6s2CnVic6zU",
                           nonce := g!"XDwbBH4MokU8BmrZ",
                           redirectUri := g!"https://client.example.org/cb",
                           codeChallenge := g!"K2-ltc83acc4h0c9w6ESC_rEMTJ3bww-uCHaoeK1t8U",
                           codeChallengeMethod := g!"S256", prompt := (some g!"consent") }) }))
      [.clientsGet g!"s6BhdRkqt3"
         (.ok
           (some
             { clientId := g!"s6BhdRkqt3", grantTypes := [g!"authorization_code"],
               responseTypes := [g!"code"], redirectUris := [g!"https://client.example.org/cb"] })),
       .genUri g!"https://honest.as.example" (.ok g!"urn:solid:Jny1CLd0EZAD0tNnDsmR56gVPhsKk9ac"),
       .arReg g!"https://honest.as.example" none
         (some
           { audience := g!"mDuGcLjmamjNpLmYZMLIshFcXUDCNDcH", responseType := g!"code",
             scope := g!"openid profile email offline_access", clientId := g!"s6BhdRkqt3",
             state := g!"oESIiuoybVxAJ5fAKmxxM6s2CnVic6zU", nonce := g!"XDwbBH4MokU8BmrZ",
             redirectUri := g!"https://client.example.org/cb",
             codeChallenge := g!"K2-ltc83acc4h0c9w6ESC_rEMTJ3bww-uCHaoeK1t8U",
             codeChallengeMethod := g!"S256", prompt := (some g!"consent") }) (.ok 90)] id
      { error := none, expiresIn := 90,
        requestUri := g!"urn:solid:Jny1CLd0EZAD0tNnDsmR56gVPhsKk9ac",
        issuer := g!"https://honest.as.example" } := by decide +kernel

/-! ### `Test_service_Device` (server/services/device/service_test.go) -/

-- line 55: nil request
example :
    runs 0 (Device.authorize none) [] id
      { error := (some ⟨.invalidRequest, none⟩), goErr := true } := by decide +kernel

-- line 66: empty request
example :
    runs 0 (Device.authorize (some { issuer := [], clientId := [] })) [] id
      { error := (some ⟨.invalidRequest, none⟩), goErr := true } := by decide +kernel

-- line 77: empty issuer
example :
    runs 0 (Device.authorize (some { issuer := [], clientId := [] })) [] id
      { error := (some ⟨.invalidRequest, none⟩), goErr := true } := by decide +kernel

-- line 90: empty client id
example :
    runs 0 (Device.authorize (some { issuer := g!"https://honest.as.example.com", clientId := [] }))
      [] id { error := (some ⟨.invalidRequest, none⟩), goErr := true } := by decide +kernel

-- line 104: client not found
example :
    runs 0
      (Device.authorize
        (some { issuer := g!"https://honest.as.example.com", clientId := g!"s6BhdRkqt3" }))
      [.clientsGet g!"s6BhdRkqt3" (.error .notFound)] id
      { error := (some ⟨.invalidRequest, none⟩), goErr := true } := by decide +kernel

-- line 121: client storage error
example :
    runs 0
      (Device.authorize
        (some { issuer := g!"https://honest.as.example.com", clientId := g!"s6BhdRkqt3" }))
      [.clientsGet g!"s6BhdRkqt3" (.error .other)] id
      { error := (some ⟨.invalidRequest, none⟩), goErr := true } := by decide +kernel

-- line 138: client nil error
example :
    runs 0
      (Device.authorize
        (some { issuer := g!"https://honest.as.example.com", clientId := g!"s6BhdRkqt3" }))
      [.clientsGet g!"s6BhdRkqt3" (.ok none)] id
      { error := (some ⟨.invalidClient, none⟩), goErr := true } := by decide +kernel

-- line 155: grant type not supported
example :
    runs 0
      (Device.authorize
        (some { issuer := g!"https://honest.as.example.com", clientId := g!"s6BhdRkqt3" }))
      [.clientsGet g!"s6BhdRkqt3"
         (.ok (some { clientId := g!"s6BhdRkqt3", grantTypes := [g!"authorization_code"] }))] id
      { error := (some ⟨.unsupportedGrantType, none⟩), goErr := true } := by decide +kernel

-- line 175: device code session registration error
example :
    runs 0
      (Device.authorize
        (some { issuer := g!"https://honest.as.example.com", clientId := g!"s6BhdRkqt3" }))
      [.clientsGet g!"s6BhdRkqt3"
         (.ok
           (some
             { clientId := g!"s6BhdRkqt3",
               grantTypes := [g!"urn:ietf:params:oauth:grant-type:device_code"] })),
       .genDev g!"https://honest.as.example.com"
         (.ok g!"GmRhmhcxhwAzkoEqiMEg_DnyEysNkuNhszIySk9eS"),
       .genUser g!"https://honest.as.example.com" (.ok g!"WDJB-MJHT"),
       .dsReg g!"https://honest.as.example.com" g!"WDJB-MJHT" (.error .other)] id
      { error := (some ⟨.serverError, none⟩), goErr := true } := by decide +kernel

-- line 199: valid
example :
    runs 0
      (Device.authorize
        (some
          { issuer := g!"https://honest.as.example.com", clientId := g!"s6BhdRkqt3",
            scope := (some g!"openid admin") }))
      [.clientsGet g!"s6BhdRkqt3"
         (.ok
           (some
             { clientId := g!"s6BhdRkqt3",
               grantTypes := [g!"urn:ietf:params:oauth:grant-type:device_code"] })),
       .genDev g!"https://honest.as.example.com"
         (.ok g!"GmRhmhcxhwAzkoEqiMEg_DnyEysNkuNhszIySk9eS"),
       .genUser g!"https://honest.as.example.com" (.ok g!"WDJB-MJHT"),
       .dsReg g!"https://honest.as.example.com" g!"WDJB-MJHT" (.ok 120)] id
      { issuer := g!"https://honest.as.example.com",
        deviceCode := g!"GmRhmhcxhwAzkoEqiMEg_DnyEysNkuNhszIySk9eS", userCode := g!"WDJB-MJHT",
        expiresIn := 120, interval := 5 } := by decide +kernel

end Verif.Replay
