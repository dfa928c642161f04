import Verif.Go.Str

/-! Constants of `oidc/const.go`. -/
namespace Verif.Oidc

/-- oidc/const.go:24 -/ def grantAuthorizationCode : Str := g!"authorization_code"
/-- oidc/const.go:26 -/ def grantClientCredentials : Str := g!"client_credentials"
/-- oidc/const.go:28 -/ def grantDeviceCode : Str := g!"urn:ietf:params:oauth:grant-type:device_code"
/-- oidc/const.go:30 -/ def grantRefreshToken : Str := g!"refresh_token"
/-- oidc/const.go:36 -/ def grantTokenExchange : Str := g!"urn:ietf:params:oauth:grant-type:token-exchange"
/-- oidc/const.go:43 -/ def scopeOpenID : Str := g!"openid"
/-- oidc/const.go:45 -/ def scopeOfflineAccess : Str := g!"offline_access"
/-- oidc/const.go:52 -/ def methodS256 : Str := g!"S256"
/-- oidc/const.go:59 -/ def assertionJWTBearer : Str := g!"urn:ietf:params:oauth:client-assertion-type:jwt-bearer"
/-- oidc/const.go:63 -/ def assertionAttestation : Str := g!"urn:ietf:params:oauth:client-assertion-type:jwt-client-attestation"
/-- oidc/const.go:71 -/ def responseTypeCode : Str := g!"code"
/-- oidc/const.go:73 -/ def responseTypeToken : Str := g!"token"
/-- oidc/const.go:82 -/ def modeQuery : Str := g!"query"
/-- oidc/const.go:86 -/ def modeFragment : Str := g!"fragment"
/-- oidc/const.go:92 -/ def modeFormPost : Str := g!"form_post"
/-- oidc/const.go:95 -/ def modeJWT : Str := g!"jwt"
/-- oidc/const.go:97 -/ def modeQueryJWT : Str := g!"query.jwt"
/-- oidc/const.go:99 -/ def modeFragmentJWT : Str := g!"fragment.jwt"
/-- oidc/const.go:101 -/ def modeFormPostJWT : Str := g!"form_post.jwt"
/-- oidc/const.go:155 -/ def exchangeAccessToken : Str := g!"urn:ietf:params:oauth:token-type:access_token"
/-- oidc/const.go:187 -/ def promptConsent : Str := g!"consent"

end Verif.Oidc
