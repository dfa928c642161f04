import Verif.Replay.Basic

/-! The tests of the device and refresh grants, replayed on the model (see `Verif.Replay.Basic`). -/
namespace Verif.Replay

/-! ### `Test_service_deviceCode` (server/services/token/grant_device_code_test.go) -/

-- line 54: nil client
example :
    runs 0
      (TokenSvc.dispatch env0 none
        { grantType := Oidc.grantDeviceCode, grant := (some (.deviceCode [])), issuer := [],
          client := none }) [] anon
      { error := (some ⟨.serverError, none⟩), goErr := true } := by decide +kernel

-- line 81: nil grant
example :
    runs 0
      (TokenSvc.dispatch env0 (some { clientId := [] })
        { grantType := Oidc.grantDeviceCode, issuer := [], client := none }) [] anon
      { error := (some ⟨.serverError, none⟩), goErr := true } := by decide +kernel

-- line 95: empty issuer
example :
    runs 0
      (TokenSvc.dispatch env0 (some { clientId := [] })
        { issuer := [], grantType := Oidc.grantDeviceCode, grant := (some (.deviceCode [])),
          client := none }) [] anon
      { error := (some ⟨.serverError, none⟩), goErr := true } := by decide +kernel

-- line 113: invalid issuer
example :
    runs 0
      (TokenSvc.dispatch env0 (some { clientId := [] })
        { issuer := g!"foo", grantType := Oidc.grantDeviceCode, grant := (some (.deviceCode [])),
          client := none }) [] anon
      { error := (some ⟨.serverError, none⟩), goErr := true } := by decide +kernel

-- line 131: client not support grant_type
example :
    runs 0
      (TokenSvc.dispatch env0 (some { grantTypes := [g!"authorization_code"], clientId := [] })
        { issuer := g!"http://127.0.0.1:8080", client := (some { clientId := g!"s6BhdRkqt3" }),
          grantType := Oidc.grantDeviceCode, grant := (some (.deviceCode [])) }) [] anon
      { error := (some ⟨.unsupportedGrantType, none⟩), goErr := true } := by decide +kernel

-- line 154: device_code is blank
example :
    runs 0
      (TokenSvc.dispatch env0
        (some { grantTypes := [g!"urn:ietf:params:oauth:grant-type:device_code"], clientId := [] })
        { issuer := g!"http://127.0.0.1:8080", client := (some { clientId := g!"s6BhdRkqt3" }),
          grantType := Oidc.grantDeviceCode, grant := (some (.deviceCode [])) }) [] anon
      { error := (some ⟨.invalidRequest, none⟩), goErr := true } := by decide +kernel

-- line 180: device_code not found
example :
    runs 0
      (TokenSvc.dispatch env0
        (some { grantTypes := [g!"urn:ietf:params:oauth:grant-type:device_code"], clientId := [] })
        { issuer := g!"http://127.0.0.1:8080", client := (some { clientId := g!"s6BhdRkqt3" }),
          grantType := Oidc.grantDeviceCode,
          grant := (some (.deviceCode g!"GmRhmhcxhwAzkoEqiMEg_DnyEysNkuNhszIySk9eS")) })
      [.dsGetDev g!"http://127.0.0.1:8080" g!"GmRhmhcxhwAzkoEqiMEg_DnyEysNkuNhszIySk9eS"
         (.error .notFound)] anon
      { error := (some ⟨.invalidRequest, none⟩), goErr := true } := by decide +kernel

-- line 209: device_code storage error
example :
    runs 0
      (TokenSvc.dispatch env0
        (some { grantTypes := [g!"urn:ietf:params:oauth:grant-type:device_code"], clientId := [] })
        { issuer := g!"http://127.0.0.1:8080", client := (some { clientId := g!"s6BhdRkqt3" }),
          grantType := Oidc.grantDeviceCode,
          grant := (some (.deviceCode g!"GmRhmhcxhwAzkoEqiMEg_DnyEysNkuNhszIySk9eS")) })
      [.dsGetDev g!"http://127.0.0.1:8080" g!"GmRhmhcxhwAzkoEqiMEg_DnyEysNkuNhszIySk9eS"
         (.error .other)] anon
      { error := (some ⟨.serverError, none⟩), goErr := true } := by decide +kernel

-- line 238: retrieved nil session
example :
    runs 0
      (TokenSvc.dispatch env0
        (some { grantTypes := [g!"urn:ietf:params:oauth:grant-type:device_code"], clientId := [] })
        { issuer := g!"http://127.0.0.1:8080", client := (some { clientId := g!"foo" }),
          grantType := Oidc.grantDeviceCode,
          grant := (some (.deviceCode g!"GmRhmhcxhwAzkoEqiMEg_DnyEysNkuNhszIySk9eS")) })
      [.dsGetDev g!"http://127.0.0.1:8080" g!"GmRhmhcxhwAzkoEqiMEg_DnyEysNkuNhszIySk9eS" (.ok none)]
      anon { error := (some ⟨.serverError, none⟩), goErr := true } := by decide +kernel

-- line 267: retrieved session with nil request
example :
    runs 0
      (TokenSvc.dispatch env0
        (some { grantTypes := [g!"urn:ietf:params:oauth:grant-type:device_code"], clientId := [] })
        { issuer := g!"http://127.0.0.1:8080", client := (some { clientId := g!"foo" }),
          grantType := Oidc.grantDeviceCode,
          grant := (some (.deviceCode g!"GmRhmhcxhwAzkoEqiMEg_DnyEysNkuNhszIySk9eS")) })
      [.dsGetDev g!"http://127.0.0.1:8080" g!"GmRhmhcxhwAzkoEqiMEg_DnyEysNkuNhszIySk9eS"
         (.ok (some (0, { })))] anon
      { error := (some ⟨.serverError, none⟩), goErr := true } := by decide +kernel

-- line 296: retrieved session with nil client
example :
    runs 0
      (TokenSvc.dispatch env0
        (some { grantTypes := [g!"urn:ietf:params:oauth:grant-type:device_code"], clientId := [] })
        { issuer := g!"http://127.0.0.1:8080", client := (some { clientId := g!"foo" }),
          grantType := Oidc.grantDeviceCode,
          grant := (some (.deviceCode g!"GmRhmhcxhwAzkoEqiMEg_DnyEysNkuNhszIySk9eS")) })
      [.dsGetDev g!"http://127.0.0.1:8080" g!"GmRhmhcxhwAzkoEqiMEg_DnyEysNkuNhszIySk9eS"
         (.ok (some (0, { request := (some { issuer := [], clientId := [] }) })))] anon
      { error := (some ⟨.serverError, none⟩), goErr := true } := by decide +kernel

-- line 327: client_id mismatch
example :
    runs 0
      (TokenSvc.dispatch env0
        (some { grantTypes := [g!"urn:ietf:params:oauth:grant-type:device_code"], clientId := [] })
        { issuer := g!"http://127.0.0.1:8080", client := (some { clientId := g!"foo" }),
          grantType := Oidc.grantDeviceCode,
          grant := (some (.deviceCode g!"GmRhmhcxhwAzkoEqiMEg_DnyEysNkuNhszIySk9eS")) })
      [.dsGetDev g!"http://127.0.0.1:8080" g!"GmRhmhcxhwAzkoEqiMEg_DnyEysNkuNhszIySk9eS"
         (.ok
           (some
             (0,
              { client := (some { clientId := g!"s6BhdRkqt3" }),
                request := (some { clientId := g!"s6BhdRkqt3", issuer := [] }) })))] anon
      { error := (some ⟨.invalidRequest, none⟩), goErr := true } := by decide +kernel

-- line 363: session is expired
example :
    runs 10000000000
      (TokenSvc.dispatch env0
        (some
          { grantTypes := [g!"urn:ietf:params:oauth:grant-type:device_code"],
            clientId := g!"s6BhdRkqt3" })
        { issuer := g!"http://127.0.0.1:8080", grantType := Oidc.grantDeviceCode,
          grant := (some (.deviceCode g!"GmRhmhcxhwAzkoEqiMEg_DnyEysNkuNhszIySk9eS")),
          client := none })
      [.dsGetDev g!"http://127.0.0.1:8080" g!"GmRhmhcxhwAzkoEqiMEg_DnyEysNkuNhszIySk9eS"
         (.ok
           (some
             (0,
              { client := (some { clientId := g!"s6BhdRkqt3" }),
                request := (some { clientId := g!"s6BhdRkqt3", issuer := [] }), expiresAt := 0 })))]
      anon { error := (some ⟨.tokenExpired, none⟩), goErr := true } := by decide +kernel

-- line 399: authorization pending
example :
    runs 10000000000
      (TokenSvc.dispatch env0
        (some
          { grantTypes := [g!"urn:ietf:params:oauth:grant-type:device_code"],
            clientId := g!"s6BhdRkqt3" })
        { issuer := g!"http://127.0.0.1:8080", grantType := Oidc.grantDeviceCode,
          grant := (some (.deviceCode g!"GmRhmhcxhwAzkoEqiMEg_DnyEysNkuNhszIySk9eS")),
          client := none })
      [.dsGetDev g!"http://127.0.0.1:8080" g!"GmRhmhcxhwAzkoEqiMEg_DnyEysNkuNhszIySk9eS"
         (.ok
           (some
             (0,
              { client := (some { clientId := g!"s6BhdRkqt3" }),
                request := (some { clientId := g!"s6BhdRkqt3", issuer := [] }), expiresAt := 200,
                status := .authorizationPending })))] anon
      { error := (some ⟨.authorizationPending, none⟩), goErr := true } := by decide +kernel

-- line 436: session invalid status
example :
    runs 10000000000
      (TokenSvc.dispatch env0
        (some
          { grantTypes := [g!"urn:ietf:params:oauth:grant-type:device_code"],
            clientId := g!"s6BhdRkqt3" })
        { issuer := g!"http://127.0.0.1:8080", grantType := Oidc.grantDeviceCode,
          grant := (some (.deviceCode g!"GmRhmhcxhwAzkoEqiMEg_DnyEysNkuNhszIySk9eS")),
          client := none })
      [.dsGetDev g!"http://127.0.0.1:8080" g!"GmRhmhcxhwAzkoEqiMEg_DnyEysNkuNhszIySk9eS"
         (.ok
           (some
             (0,
              { client := (some { clientId := g!"s6BhdRkqt3" }),
                request := (some { clientId := g!"s6BhdRkqt3", issuer := [] }), expiresAt := 200,
                status := .unknown })))] anon
      { error := (some ⟨.invalidToken, none⟩), goErr := true } := by decide +kernel

-- line 473: session validated with no subject error
example :
    runs 10000000000
      (TokenSvc.dispatch env0
        (some
          { grantTypes := [g!"urn:ietf:params:oauth:grant-type:device_code"],
            clientId := g!"s6BhdRkqt3" })
        { issuer := g!"http://127.0.0.1:8080", grantType := Oidc.grantDeviceCode,
          grant := (some (.deviceCode g!"GmRhmhcxhwAzkoEqiMEg_DnyEysNkuNhszIySk9eS")),
          client := none })
      [.dsGetDev g!"http://127.0.0.1:8080" g!"GmRhmhcxhwAzkoEqiMEg_DnyEysNkuNhszIySk9eS"
         (.ok
           (some
             (0,
              { client := (some { clientId := g!"s6BhdRkqt3" }),
                request := (some { clientId := g!"s6BhdRkqt3", issuer := [] }), expiresAt := 200,
                status := .validated, subject := none })))] anon
      { error := (some ⟨.serverError, none⟩), goErr := true } := by decide +kernel

-- line 511: session validated with at generation error
example :
    runs 10000000000
      (TokenSvc.dispatch env0
        (some
          { grantTypes := [g!"urn:ietf:params:oauth:grant-type:device_code"],
            clientId := g!"s6BhdRkqt3" })
        { issuer := g!"http://127.0.0.1:8080", grantType := Oidc.grantDeviceCode,
          grant := (some (.deviceCode g!"GmRhmhcxhwAzkoEqiMEg_DnyEysNkuNhszIySk9eS")),
          client := none })
      [.dsGetDev g!"http://127.0.0.1:8080" g!"GmRhmhcxhwAzkoEqiMEg_DnyEysNkuNhszIySk9eS"
         (.ok
           (some
             (0,
              { client := (some { clientId := g!"s6BhdRkqt3" }),
                request := (some { clientId := g!"s6BhdRkqt3", issuer := [] }), expiresAt := 200,
                status := .validated, subject := (some g!"user-1") }))), .genAT (.error .other)]
      anon { error := (some ⟨.serverError, none⟩), goErr := true } := by decide +kernel

-- line 550: session validated with at storage error
example :
    runs 10000000000
      (TokenSvc.dispatch env0
        (some
          { grantTypes := [g!"urn:ietf:params:oauth:grant-type:device_code"],
            clientId := g!"s6BhdRkqt3" })
        { issuer := g!"http://127.0.0.1:8080", grantType := Oidc.grantDeviceCode,
          grant := (some (.deviceCode g!"GmRhmhcxhwAzkoEqiMEg_DnyEysNkuNhszIySk9eS")),
          client := none })
      [.dsGetDev g!"http://127.0.0.1:8080" g!"GmRhmhcxhwAzkoEqiMEg_DnyEysNkuNhszIySk9eS"
         (.ok
           (some
             (0,
              { client := (some { clientId := g!"s6BhdRkqt3" }),
                request := (some { clientId := g!"s6BhdRkqt3", issuer := [] }), expiresAt := 200,
                status := .validated, subject := (some g!"user1") }))),
       .genAT (.ok g!"cwE.HcbVtkyQCyCUfjxYvjHNODfTbVpSlmyo"),
       .tkCreate g!"http://127.0.0.1:8080" (.error .other)] anon
      { error := (some ⟨.serverError, none⟩), goErr := true } := by decide +kernel

-- line 590: refresh token storage error
example :
    runs 1000000000
      (TokenSvc.dispatch env0
        (some
          { grantTypes := [g!"urn:ietf:params:oauth:grant-type:device_code"],
            clientId := g!"s6BhdRkqt3" })
        { issuer := g!"http://127.0.0.1:8080", grantType := Oidc.grantDeviceCode,
          grant := (some (.deviceCode g!"GmRhmhcxhwAzkoEqiMEg_DnyEysNkuNhszIySk9eS")),
          scope := (some g!"offline_access"), client := none })
      [.dsGetDev g!"http://127.0.0.1:8080" g!"GmRhmhcxhwAzkoEqiMEg_DnyEysNkuNhszIySk9eS"
         (.ok
           (some
             (0,
              { client := (some { clientId := g!"s6BhdRkqt3" }),
                request := (some
                             { clientId := g!"s6BhdRkqt3", scope := (some g!"offline_access"),
                               issuer := [] }), expiresAt := 200, status := .validated,
                subject := (some g!"user1"), scope := (some g!"offline_access") }))),
       .genAT (.ok g!"cwE.HcbVtkyQCyCUfjxYvjHNODfTbVpSlmyo"),
       .tkCreate g!"http://127.0.0.1:8080" (.ok ()),
       .genRT (.ok g!"LHT.djeMMoErRAsLuXLlDYZDGdodfVLOduDi"),
       .tkCreate g!"http://127.0.0.1:8080" (.error .other)] anon
      { error := (some ⟨.serverError, none⟩), goErr := true } := by decide +kernel

-- line 636: valid
example :
    runs 1000000000
      (TokenSvc.dispatch env0
        (some
          { grantTypes := [g!"urn:ietf:params:oauth:grant-type:device_code"],
            clientId := g!"s6BhdRkqt3" })
        { issuer := g!"http://127.0.0.1:8080", grantType := Oidc.grantDeviceCode,
          grant := (some (.deviceCode g!"GmRhmhcxhwAzkoEqiMEg_DnyEysNkuNhszIySk9eS")),
          client := none })
      [.dsGetDev g!"http://127.0.0.1:8080" g!"GmRhmhcxhwAzkoEqiMEg_DnyEysNkuNhszIySk9eS"
         (.ok
           (some
             (0,
              { client := (some { clientId := g!"s6BhdRkqt3" }),
                request := (some { clientId := g!"s6BhdRkqt3", issuer := [] }), expiresAt := 200,
                status := .validated, subject := (some g!"user1") }))),
       .genAT (.ok g!"cwE.HcbVtkyQCyCUfjxYvjHNODfTbVpSlmyo"),
       .tkCreate g!"http://127.0.0.1:8080" (.ok ())] anon
      { error := none,
        accessToken := (some
                         { tokenType := .accessToken, status := .active,
                           metadata := (some
                                         { issuer := g!"http://127.0.0.1:8080", issuedAt := 1,
                                           notBefore := 2, expiresAt := 3601,
                                           clientId := g!"s6BhdRkqt3", subject := g!"user1" }),
                           value := g!"cwE.HcbVtkyQCyCUfjxYvjHNODfTbVpSlmyo" }) } := by decide +kernel

-- line 689: valid - offline_access
example :
    runs 1000000000
      (TokenSvc.dispatch env0
        (some
          { grantTypes := [g!"urn:ietf:params:oauth:grant-type:device_code"],
            clientId := g!"s6BhdRkqt3" })
        { issuer := g!"http://127.0.0.1:8080", grantType := Oidc.grantDeviceCode,
          grant := (some (.deviceCode g!"GmRhmhcxhwAzkoEqiMEg_DnyEysNkuNhszIySk9eS")),
          scope := (some g!"offline_access"), client := none })
      [.dsGetDev g!"http://127.0.0.1:8080" g!"GmRhmhcxhwAzkoEqiMEg_DnyEysNkuNhszIySk9eS"
         (.ok
           (some
             (0,
              { client := (some { clientId := g!"s6BhdRkqt3" }),
                request := (some
                             { clientId := g!"s6BhdRkqt3", scope := (some g!"offline_access"),
                               issuer := [] }), expiresAt := 200, status := .validated,
                subject := (some g!"user1"), scope := (some g!"offline_access") }))),
       .genAT (.ok g!"cwE.HcbVtkyQCyCUfjxYvjHNODfTbVpSlmyo"),
       .tkCreate g!"http://127.0.0.1:8080" (.ok ()),
       .genRT (.ok g!"LHT.djeMMoErRAsLuXLlDYZDGdodfVLOduDi"),
       .tkCreate g!"http://127.0.0.1:8080" (.ok ())] anon
      { error := none,
        accessToken := (some
                         { tokenType := .accessToken, status := .active,
                           metadata := (some
                                         { issuer := g!"http://127.0.0.1:8080",
                                           scope := g!"offline_access", issuedAt := 1,
                                           notBefore := 2, expiresAt := 3601,
                                           clientId := g!"s6BhdRkqt3", subject := g!"user1" }),
                           value := g!"cwE.HcbVtkyQCyCUfjxYvjHNODfTbVpSlmyo" }),
        refreshToken := (some
                          { tokenType := .refreshToken, status := .active,
                            metadata := (some
                                          { issuer := g!"http://127.0.0.1:8080",
                                            scope := g!"offline_access", issuedAt := 1,
                                            notBefore := 2, expiresAt := 604801,
                                            clientId := g!"s6BhdRkqt3", subject := g!"user1" }),
                            value := g!"LHT.djeMMoErRAsLuXLlDYZDGdodfVLOduDi" }) } := by decide +kernel

/-! ### `Test_service_refreshToken` (server/services/token/grant_refresh_token_test.go) -/

-- line 52: nil client
example :
    runs 0
      (TokenSvc.dispatch env0 none
        { grantType := Oidc.grantRefreshToken, grant := (some .clientCredentials), issuer := [],
          client := none }) [] anon
      { error := (some ⟨.serverError, none⟩), goErr := true } := by decide +kernel

-- line 79: nil grant
example :
    runs 0
      (TokenSvc.dispatch env0 (some { clientId := [] })
        { grantType := Oidc.grantRefreshToken, issuer := [], client := none }) [] anon
      { error := (some ⟨.serverError, none⟩), goErr := true } := by decide +kernel

-- line 93: empty issuer
example :
    runs 0
      (TokenSvc.dispatch env0 (some { clientId := [] })
        { issuer := [], client := (some { clientId := [] }), grantType := Oidc.grantRefreshToken,
          grant := (some (.refreshToken [])) }) [] anon
      { error := (some ⟨.serverError, none⟩), goErr := true } := by decide +kernel

-- line 112: invalid issuer
example :
    runs 0
      (TokenSvc.dispatch env0 (some { clientId := [] })
        { issuer := g!"foo", client := (some { clientId := [] }),
          grantType := Oidc.grantRefreshToken, grant := (some (.refreshToken [])) }) [] anon
      { error := (some ⟨.serverError, none⟩), goErr := true } := by decide +kernel

-- line 131: empty refresh_token
example :
    runs 0
      (TokenSvc.dispatch env0 (some { clientId := [] })
        { issuer := g!"http://127.0.0.1:8080", client := (some { clientId := g!"s6BhdRkqt3" }),
          grantType := Oidc.grantRefreshToken, grant := (some (.refreshToken [])) }) [] anon
      { error := (some ⟨.invalidRequest, none⟩), goErr := true } := by decide +kernel

-- line 154: client not support grant_type
example :
    runs 0
      (TokenSvc.dispatch env0 (some { grantTypes := [g!"authorization_code"], clientId := [] })
        { issuer := g!"http://127.0.0.1:8080", client := (some { clientId := g!"s6BhdRkqt3" }),
          grantType := Oidc.grantRefreshToken,
          grant := (some (.refreshToken g!"LHT.djeMMoErRAsLuXLlDYZDGdodfVLOduDi")) }) [] anon
      { error := (some ⟨.unsupportedGrantType, none⟩), goErr := true } := by decide +kernel

-- line 179: refresh token not found
example :
    runs 0
      (TokenSvc.dispatch env0 (some { grantTypes := [g!"refresh_token"], clientId := [] })
        { issuer := g!"http://127.0.0.1:8080", client := (some { clientId := g!"s6BhdRkqt3" }),
          grantType := Oidc.grantRefreshToken,
          grant := (some (.refreshToken g!"LHT.djeMMoErRAsLuXLlDYZDGdodfVLOduDi")) })
      [.tkGetVal g!"http://127.0.0.1:8080" g!"LHT.djeMMoErRAsLuXLlDYZDGdodfVLOduDi"
         (.error .notFound)] anon
      { error := (some ⟨.invalidRequest, none⟩), goErr := true } := by decide +kernel

-- line 207: refresh token storage error
example :
    runs 0
      (TokenSvc.dispatch env0 (some { grantTypes := [g!"refresh_token"], clientId := [] })
        { issuer := g!"http://127.0.0.1:8080", client := (some { clientId := g!"s6BhdRkqt3" }),
          grantType := Oidc.grantRefreshToken,
          grant := (some (.refreshToken g!"LHT.djeMMoErRAsLuXLlDYZDGdodfVLOduDi")) })
      [.tkGetVal g!"http://127.0.0.1:8080" g!"LHT.djeMMoErRAsLuXLlDYZDGdodfVLOduDi" (.error .other)]
      anon { error := (some ⟨.serverError, none⟩), goErr := true } := by decide +kernel

-- line 235: refresh token is not active
example :
    runs 0
      (TokenSvc.dispatch env0 (some { grantTypes := [g!"refresh_token"], clientId := [] })
        { issuer := g!"http://127.0.0.1:8080", client := (some { clientId := g!"s6BhdRkqt3" }),
          grantType := Oidc.grantRefreshToken,
          grant := (some (.refreshToken g!"LHT.djeMMoErRAsLuXLlDYZDGdodfVLOduDi")) })
      [.tkGetVal g!"http://127.0.0.1:8080" g!"LHT.djeMMoErRAsLuXLlDYZDGdodfVLOduDi"
         (.ok
           (some
             { value := g!"LHT.djeMMoErRAsLuXLlDYZDGdodfVLOduDi", tokenId := g!"0123456789",
               status := .revoked, tokenType := .accessToken }))] anon
      { error := (some ⟨.invalidRequest, none⟩), goErr := true } := by decide +kernel

-- line 268: refresh token is not a refresh_token
example :
    runs 0
      (TokenSvc.dispatch env0 (some { grantTypes := [g!"refresh_token"], clientId := [] })
        { issuer := g!"http://127.0.0.1:8080", client := (some { clientId := g!"s6BhdRkqt3" }),
          grantType := Oidc.grantRefreshToken,
          grant := (some (.refreshToken g!"LHT.djeMMoErRAsLuXLlDYZDGdodfVLOduDi")) })
      [.tkGetVal g!"http://127.0.0.1:8080" g!"LHT.djeMMoErRAsLuXLlDYZDGdodfVLOduDi"
         (.ok
           (some
             { value := g!"LHT.djeMMoErRAsLuXLlDYZDGdodfVLOduDi", tokenId := g!"0123456789",
               status := .active, tokenType := .accessToken }))] anon
      { error := (some ⟨.invalidRequest, none⟩), goErr := true } := by decide +kernel

-- line 301: refresh token doesn't have metadata
example :
    runs 0
      (TokenSvc.dispatch env0 (some { grantTypes := [g!"refresh_token"], clientId := [] })
        { issuer := g!"http://127.0.0.1:8080", client := (some { clientId := g!"s6BhdRkqt3" }),
          grantType := Oidc.grantRefreshToken,
          grant := (some (.refreshToken g!"LHT.djeMMoErRAsLuXLlDYZDGdodfVLOduDi")) })
      [.tkGetVal g!"http://127.0.0.1:8080" g!"LHT.djeMMoErRAsLuXLlDYZDGdodfVLOduDi"
         (.ok
           (some
             { value := g!"LHT.djeMMoErRAsLuXLlDYZDGdodfVLOduDi", tokenId := g!"0123456789",
               status := .active, tokenType := .refreshToken }))] anon
      { error := (some ⟨.serverError, none⟩), goErr := true } := by decide +kernel

-- line 334: refresh token expired
example :
    runs 100000000000
      (TokenSvc.dispatch env0 (some { grantTypes := [g!"refresh_token"], clientId := [] })
        { issuer := g!"http://127.0.0.1:8080", client := (some { clientId := g!"s6BhdRkqt3" }),
          grantType := Oidc.grantRefreshToken,
          grant := (some (.refreshToken g!"LHT.djeMMoErRAsLuXLlDYZDGdodfVLOduDi")) })
      [.tkGetVal g!"http://127.0.0.1:8080" g!"LHT.djeMMoErRAsLuXLlDYZDGdodfVLOduDi"
         (.ok
           (some
             { value := g!"LHT.djeMMoErRAsLuXLlDYZDGdodfVLOduDi", tokenId := g!"0123456789",
               status := .active, tokenType := .refreshToken,
               metadata := (some
                             { issuer := g!"http://127.0.0.1:8080",
                               audience := g!"mDuGcLjmamjNpLmYZMLIshFcXUDCNDcH",
                               scope := g!"openid profile email offline_access", issuedAt := 1,
                               expiresAt := 2, notBefore := 2 }) }))] anon
      { error := (some ⟨.invalidRequest, none⟩), goErr := true } := by decide +kernel

-- line 376: refresh token / client_id mismatch
example :
    runs 1000000000
      (TokenSvc.dispatch env0 (some { grantTypes := [g!"refresh_token"], clientId := [] })
        { issuer := g!"http://127.0.0.1:8080", client := (some { clientId := g!"s6BhdRkqt3" }),
          grantType := Oidc.grantRefreshToken,
          grant := (some (.refreshToken g!"LHT.djeMMoErRAsLuXLlDYZDGdodfVLOduDi")) })
      [.tkGetVal g!"http://127.0.0.1:8080" g!"LHT.djeMMoErRAsLuXLlDYZDGdodfVLOduDi"
         (.ok
           (some
             { value := g!"LHT.djeMMoErRAsLuXLlDYZDGdodfVLOduDi", tokenId := g!"0123456789",
               status := .active, tokenType := .refreshToken,
               metadata := (some
                             { issuer := g!"http://127.0.0.1:8080", clientId := g!"123458",
                               audience := g!"mDuGcLjmamjNpLmYZMLIshFcXUDCNDcH",
                               scope := g!"openid profile email offline_access", issuedAt := 1,
                               notBefore := 2, expiresAt := 604801 }) }))] anon
      { error := (some ⟨.invalidRequest, none⟩), goErr := true } := by decide +kernel

-- line 420: error during accessToken generation
example :
    runs 1000000000
      (TokenSvc.dispatch env0 (some { grantTypes := [g!"refresh_token"], clientId := [] })
        { issuer := g!"http://127.0.0.1:8080", client := (some { clientId := g!"s6BhdRkqt3" }),
          grantType := Oidc.grantRefreshToken,
          grant := (some (.refreshToken g!"LHT.djeMMoErRAsLuXLlDYZDGdodfVLOduDi")) })
      [.tkGetVal g!"http://127.0.0.1:8080" g!"LHT.djeMMoErRAsLuXLlDYZDGdodfVLOduDi"
         (.ok
           (some
             { value := g!"LHT.djeMMoErRAsLuXLlDYZDGdodfVLOduDi", tokenId := g!"0123456789",
               tokenType := .refreshToken, status := .active,
               metadata := (some
                             { issuer := g!"http://127.0.0.1:8080",
                               audience := g!"mDuGcLjmamjNpLmYZMLIshFcXUDCNDcH",
                               scope := g!"openid profile email offline_access", issuedAt := 1,
                               notBefore := 2, expiresAt := 604801 }) })), .genAT (.error .other)]
      anon { error := (some ⟨.serverError, none⟩), goErr := true } := by decide +kernel

-- line 463: empty access token value
example :
    runs 1000000000
      (TokenSvc.dispatch env0 (some { grantTypes := [g!"refresh_token"], clientId := [] })
        { issuer := g!"http://127.0.0.1:8080", client := (some { clientId := g!"s6BhdRkqt3" }),
          grantType := Oidc.grantRefreshToken,
          grant := (some (.refreshToken g!"LHT.djeMMoErRAsLuXLlDYZDGdodfVLOduDi")) })
      [.tkGetVal g!"http://127.0.0.1:8080" g!"LHT.djeMMoErRAsLuXLlDYZDGdodfVLOduDi"
         (.ok
           (some
             { value := g!"LHT.djeMMoErRAsLuXLlDYZDGdodfVLOduDi", tokenId := g!"0123456789",
               tokenType := .refreshToken, status := .active,
               metadata := (some
                             { issuer := g!"http://127.0.0.1:8080",
                               audience := g!"mDuGcLjmamjNpLmYZMLIshFcXUDCNDcH",
                               scope := g!"openid profile email offline_access", issuedAt := 1,
                               notBefore := 2, expiresAt := 604801 }) })), .genAT (.ok [])] anon
      { error := (some ⟨.serverError, none⟩), goErr := true } := by decide +kernel

-- line 506: token storage error
example :
    runs 1000000000
      (TokenSvc.dispatch env0 (some { grantTypes := [g!"refresh_token"], clientId := [] })
        { issuer := g!"http://127.0.0.1:8080", client := (some { clientId := g!"s6BhdRkqt3" }),
          grantType := Oidc.grantRefreshToken,
          grant := (some (.refreshToken g!"LHT.djeMMoErRAsLuXLlDYZDGdodfVLOduDi")) })
      [.tkGetVal g!"http://127.0.0.1:8080" g!"LHT.djeMMoErRAsLuXLlDYZDGdodfVLOduDi"
         (.ok
           (some
             { value := g!"LHT.djeMMoErRAsLuXLlDYZDGdodfVLOduDi", tokenId := g!"0123456789",
               tokenType := .refreshToken, status := .active,
               metadata := (some
                             { issuer := g!"http://127.0.0.1:8080",
                               audience := g!"mDuGcLjmamjNpLmYZMLIshFcXUDCNDcH",
                               scope := g!"openid profile email offline_access", issuedAt := 1,
                               notBefore := 2, expiresAt := 604801 }) })),
       .genAT (.ok g!"xtU.GvmXVrPVNqSnHjpZbEarIqOPAlfXfQpM"),
       .tkCreate g!"http://127.0.0.1:8080" (.error .other)] anon
      { error := (some ⟨.serverError, none⟩), goErr := true } := by decide +kernel

-- line 550: rt generation error
example :
    runs 1000000000
      (TokenSvc.dispatch env0 (some { grantTypes := [g!"refresh_token"], clientId := [] })
        { issuer := g!"http://127.0.0.1:8080", client := (some { clientId := g!"s6BhdRkqt3" }),
          grantType := Oidc.grantRefreshToken,
          grant := (some (.refreshToken g!"LHT.djeMMoErRAsLuXLlDYZDGdodfVLOduDi")) })
      [.tkGetVal g!"http://127.0.0.1:8080" g!"LHT.djeMMoErRAsLuXLlDYZDGdodfVLOduDi"
         (.ok
           (some
             { value := g!"LHT.djeMMoErRAsLuXLlDYZDGdodfVLOduDi", tokenId := g!"0123456789",
               tokenType := .refreshToken, status := .active,
               metadata := (some
                             { issuer := g!"http://127.0.0.1:8080",
                               audience := g!"mDuGcLjmamjNpLmYZMLIshFcXUDCNDcH",
                               scope := g!"openid profile email offline_access", issuedAt := 1,
                               expiresAt := 2, notBefore := 2 }) })),
       .genAT (.ok g!"xtU.GvmXVrPVNqSnHjpZbEarIqOPAlfXfQpM"),
       .tkCreate g!"http://127.0.0.1:8080" (.ok ()),
       .genRT (.ok g!"JHP.HscxBIrTOYZWgupVlrABwkdbhtqVFrmr"),
       .tkCreate g!"http://127.0.0.1:8080" (.error .other)] anon
      { error := (some ⟨.serverError, none⟩), goErr := true } := by decide +kernel

-- line 596: rt revocation error
example :
    runs 1000000000
      (TokenSvc.dispatch env0 (some { grantTypes := [g!"refresh_token"], clientId := [] })
        { issuer := g!"http://127.0.0.1:8080", client := (some { clientId := g!"s6BhdRkqt3" }),
          grantType := Oidc.grantRefreshToken,
          grant := (some (.refreshToken g!"LHT.djeMMoErRAsLuXLlDYZDGdodfVLOduDi")) })
      [.tkGetVal g!"http://127.0.0.1:8080" g!"LHT.djeMMoErRAsLuXLlDYZDGdodfVLOduDi"
         (.ok
           (some
             { value := g!"LHT.djeMMoErRAsLuXLlDYZDGdodfVLOduDi", tokenId := g!"0123456789",
               tokenType := .refreshToken, status := .active,
               metadata := (some
                             { issuer := g!"http://127.0.0.1:8080",
                               audience := g!"mDuGcLjmamjNpLmYZMLIshFcXUDCNDcH",
                               scope := g!"openid profile email offline_access", issuedAt := 1,
                               expiresAt := 2, notBefore := 2 }) })),
       .genAT (.ok g!"xtU.GvmXVrPVNqSnHjpZbEarIqOPAlfXfQpM"),
       .tkCreate g!"http://127.0.0.1:8080" (.ok ()),
       .genRT (.ok g!"JHP.HscxBIrTOYZWgupVlrABwkdbhtqVFrmr"),
       .tkCreate g!"http://127.0.0.1:8080" (.ok ()),
       .tkRevoke g!"http://127.0.0.1:8080" g!"0123456789" (.error .other)] anon
      { error := (some ⟨.serverError, none⟩), goErr := true } := by decide +kernel

-- line 644: valid
example :
    runs 1000000000
      (TokenSvc.dispatch env0 (some { grantTypes := [g!"refresh_token"], clientId := [] })
        { issuer := g!"http://127.0.0.1:8080", client := (some { clientId := g!"s6BhdRkqt3" }),
          grantType := Oidc.grantRefreshToken,
          grant := (some (.refreshToken g!"LHT.djeMMoErRAsLuXLlDYZDGdodfVLOduDi")) })
      [.tkGetVal g!"http://127.0.0.1:8080" g!"LHT.djeMMoErRAsLuXLlDYZDGdodfVLOduDi"
         (.ok
           (some
             { value := g!"LHT.djeMMoErRAsLuXLlDYZDGdodfVLOduDi", tokenId := g!"0123456789",
               tokenType := .refreshToken, status := .active,
               metadata := (some
                             { issuer := g!"http://127.0.0.1:8080",
                               audience := g!"mDuGcLjmamjNpLmYZMLIshFcXUDCNDcH",
                               scope := g!"openid profile email offline_access", issuedAt := 1,
                               notBefore := 2, expiresAt := 604801 }) })),
       .genAT (.ok g!"xtU.GvmXVrPVNqSnHjpZbEarIqOPAlfXfQpM"),
       .tkCreate g!"http://127.0.0.1:8080" (.ok ())] anon
      { accessToken := (some
                         { value := g!"xtU.GvmXVrPVNqSnHjpZbEarIqOPAlfXfQpM",
                           tokenType := .accessToken, status := .active,
                           metadata := (some
                                         { issuer := g!"http://127.0.0.1:8080",
                                           audience := g!"mDuGcLjmamjNpLmYZMLIshFcXUDCNDcH",
                                           scope := g!"openid profile email offline_access",
                                           issuedAt := 1, notBefore := 2, expiresAt := 3601 }) }) } := by decide +kernel

-- line 701: valid with new rt
example :
    runs 1000000000
      (TokenSvc.dispatch env0 (some { grantTypes := [g!"refresh_token"], clientId := [] })
        { issuer := g!"http://127.0.0.1:8080", client := (some { clientId := g!"s6BhdRkqt3" }),
          grantType := Oidc.grantRefreshToken,
          grant := (some (.refreshToken g!"LHT.djeMMoErRAsLuXLlDYZDGdodfVLOduDi")) })
      [.tkGetVal g!"http://127.0.0.1:8080" g!"LHT.djeMMoErRAsLuXLlDYZDGdodfVLOduDi"
         (.ok
           (some
             { value := g!"LHT.djeMMoErRAsLuXLlDYZDGdodfVLOduDi", tokenId := g!"0123456789",
               tokenType := .refreshToken, status := .active,
               metadata := (some
                             { issuer := g!"http://127.0.0.1:8080",
                               audience := g!"mDuGcLjmamjNpLmYZMLIshFcXUDCNDcH",
                               scope := g!"openid profile email offline_access", issuedAt := 1,
                               notBefore := 2, expiresAt := 2 }) })),
       .genAT (.ok g!"xtU.GvmXVrPVNqSnHjpZbEarIqOPAlfXfQpM"),
       .tkCreate g!"http://127.0.0.1:8080" (.ok ()),
       .genRT (.ok g!"JHP.HscxBIrTOYZWgupVlrABwkdbhtqVFrmr"),
       .tkCreate g!"http://127.0.0.1:8080" (.ok ()),
       .tkRevoke g!"http://127.0.0.1:8080" g!"0123456789" (.ok ())] anon
      { accessToken := (some
                         { value := g!"xtU.GvmXVrPVNqSnHjpZbEarIqOPAlfXfQpM",
                           tokenType := .accessToken, status := .active,
                           metadata := (some
                                         { issuer := g!"http://127.0.0.1:8080",
                                           audience := g!"mDuGcLjmamjNpLmYZMLIshFcXUDCNDcH",
                                           scope := g!"openid profile email offline_access",
                                           issuedAt := 1, notBefore := 2, expiresAt := 3601 }) }),
        refreshToken := (some
                          { value := g!"JHP.HscxBIrTOYZWgupVlrABwkdbhtqVFrmr",
                            tokenType := .refreshToken, status := .active,
                            metadata := (some
                                          { issuer := g!"http://127.0.0.1:8080",
                                            audience := g!"mDuGcLjmamjNpLmYZMLIshFcXUDCNDcH",
                                            scope := g!"openid profile email offline_access",
                                            issuedAt := 1, notBefore := 2, expiresAt := 604801 }) }) } := by decide +kernel

end Verif.Replay
