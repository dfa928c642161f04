import Verif.Model.Store

/-!
The clients with which the in-memory client storage starts
(`server/storage/inmemory/client.go` `Clients`), as the example server uses it
(`examples/authorizationserver/main.go`). Contacts and application types, which nothing
reads, are left out. Nothing calls `Register` (client.go:199-207) or `GetByName`; they are in `Model/ClientStore`.
-/
namespace Verif.Registry

/-- client.go:39-60. -/
def testClient : Client where
  clientId := g!"t8p9duw4n2klximkv3kagaud796ul67g"
  clientType := .confidential
  clientName := g!"test-client"
  jwks := g!"{\"keys\":[\n\t\t\t\t\t{\n\t\t\t\t\t\t\"kid\":\"t8p9duw4n2klximkv3kagaud796ul67g\",\n\t\t\t\t\t\t\"kty\":\"EC\",\n\t\t\t\t\t\t\"crv\":\"P-384\",\n\t\t\t\t\t\t\"alg\":\"ES384\",\n\t\t\t\t\t\t\"x\":\"yqLwlyN2qohjRcI_evlAXge2bvQWQQwGjsQNXEtfFMN613Wu6a5qfzu74vBkKJau\",\n\t\t\t\t\t\t\"y\":\"aCVWx2cX2f7foQ0KtPGJ-TKjFMtcEWv1VQKJUL93B7ANbnwnj_Ox2DsYd64wUH8o\"\n\t\t\t\t\t}\n\t\t\t\t]}"
  grantTypes := [g!"client_credentials"]
  subjectType := g!"pairwise"
  sectorIdentifier := g!"http://127.0.0.1:8085"
  dpopBoundAccessTokens := true

/-- client.go:61-82. -/
def resourceServer : Client where
  clientId := g!"5stz52n91hr7aw9q1h5hbuvkt2ovevdw"
  clientType := .confidential
  clientName := g!"resource-server"
  jwks := g!"{\"keys\":[\n\t\t\t\t\t{\n\t\t\t\t\t\t\"kid\":\"5stz52n91hr7aw9q1h5hbuvkt2ovevdw\",\n\t\t\t\t\t\t\"kty\":\"EC\",\n\t\t\t\t\t\t\"crv\":\"P-384\",\n\t\t\t\t\t\t\"alg\":\"ES384\",\n\t\t\t\t\t\t\"x\":\"YvJISWbCgiUhED5jb_N6UEem2jwN4WU2kIgC3KsT1tXS2FB7PSKdFdx76vtUW2e3\",\n\t\t\t\t\t\t\"y\":\"XYEHKEfIH8dd2xqZ8oTO8COnOs_OpFs71xvncT3c-3koJYix4Sb9c-drRRRRAqnK\"\n\t\t\t\t\t}\n\t\t\t\t]}"
  grantTypes := [g!"client_credentials", g!"urn:ietf:params:oauth:grant-type:token-exchange"]
  subjectType := g!"pairwise"
  sectorIdentifier := g!"http://127.0.0.1:8085"

/-- client.go:83-124. -/
def fooTestClient : Client where
  clientId := g!"6779ef20e75817b79602"
  clientType := .confidential
  clientName := g!"foo-test-client"
  jwks := g!"{\n\t\t\t\t\t\"keys\": [\n\t\t\t\t\t\t{\n\t\t\t\t\t\t\t\"kid\": \"6779ef20e75817b79602\",\n\t\t\t\t\t\t\t\"kty\": \"EC\",\n\t\t\t\t\t\t\t\"use\": \"sig\",\n\t\t\t\t\t\t\t\"crv\": \"P-384\",\n\t\t\t\t\t\t\t\"x\": \"m2NDaWfRRGlCkUa4FK949uLtMqitX1lYgi8UCIMtsuR60ux3d00XBlsC6j_YDOTe\",\n\t\t\t\t\t\t\t\"y\": \"6vxuUq3V1aoWi4FQ_h9ZNwUsmcGP8Uuqq_YN5dhP0U8lchdmZJbLF9mPiimo_6p4\",\n\t\t\t\t\t\t\t\"alg\": \"ES384\"\n\t\t\t\t\t\t}\n\t\t\t\t\t]\n\t\t\t\t}"
  grantTypes := [g!"authorization_code", g!"client_credentials", g!"urn:ietf:params:oauth:grant-type:device_code", g!"refresh_token", g!"urn:ietf:params:oauth:grant-type:token-exchange"]
  responseTypes := [g!"code"]
  responseModes := [g!"query.jwt"]
  redirectUris := [g!"http://127.0.0.1:8085/oidc/as/127.0.0.1"]
  subjectType := g!"pairwise"
  sectorIdentifier := g!"http://127.0.0.1:8085"

/-- client.go:125-140. -/
def publicClient : Client where
  clientId := g!"public-client"
  clientType := .pub
  clientName := g!"cli-public-client"
  grantTypes := [g!"urn:ietf:params:oauth:grant-type:device_code", g!"refresh_token"]
  subjectType := g!"pairwise"
  sectorIdentifier := g!"http://127.0.0.1:8085"

/-- client.go:141-153. -/
def attestationClient : Client where
  clientId := g!"attestation-client"
  clientType := .credentialed
  clientName := g!"cli-public-client"
  grantTypes := [g!"client_credentials"]
  tokenEndpointAuthMethod := g!"attest_jwt_client_auth"

/-- client.go:154-167. -/
def attestationServer : Client where
  clientId := g!"urn:solid:attestation-server"
  clientType := .pub
  clientName := g!"Remote Attestation Server"
  jwks := g!"{\n\t\t\t\t\t\"keys\": [\n\t\t\t\t\t  {\n\t\t\t\t\t\t\"kty\": \"OKP\",\n\t\t\t\t\t\t\"crv\": \"Ed25519\",\n\t\t\t\t\t\t\"x\": \"sV786Cr8zFU-NWb-6jNcKees_-t9dQg5hj_ZC9XA4aA\"\n\t\t\t\t\t  }\n\t\t\t\t\t]\n\t\t\t\t  }"

/-- client.go:36-170 `Clients`. -/
def shipped : List (Str × Client) :=
  [(g!"t8p9duw4n2klximkv3kagaud796ul67g", testClient),
   (g!"5stz52n91hr7aw9q1h5hbuvkt2ovevdw", resourceServer),
   (g!"6779ef20e75817b79602", fooTestClient),
   (g!"public-client", publicClient),
   (g!"attestation-client", attestationClient),
   (g!"urn:solid:attestation-server", attestationServer)]

/-- client.go:174-183 `Get` on the backend. -/
def get (id : Str) : Option Client := shipped.lookup id

end Verif.Registry
