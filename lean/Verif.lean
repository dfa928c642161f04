import Verif.Go.Str
import Verif.Go.Base64
import Verif.Model.Types
import Verif.Model.Oidc
import Verif.Model.StringArray
import Verif.Model.Prog
import Verif.Model.Env
import Verif.Model.Authorization
import Verif.Model.Device
import Verif.Model.Token
import Verif.Model.Store
import Verif.Model.DPoP
import Verif.Model.System
import Verif.Spec.Strings
import Verif.Spec.Authorization
import Verif.Spec.Token
import Verif.Spec.System
import Verif.Proofs.Prog
import Verif.Proofs.Utf8
import Verif.Proofs.Strings
import Verif.Proofs.Authorization
import Verif.Proofs.Token
import Verif.Proofs.TokenFacts
import Verif.Proofs.Demo
import Verif.Proofs.NoPanic
import Verif.Proofs.Device
import Verif.Proofs.Run
import Verif.Proofs.StoreFacts
import Verif.Proofs.Footprint
import Verif.Proofs.TokenCalls
import Verif.Proofs.History
import Verif.Proofs.Handle
import Verif.Proofs.Codes
import Verif.Proofs.DemoRun
import Verif.Props.Authorization
import Verif.Props.Token
import Verif.Props.Codes
import Verif.Proofs.Tokens
import Verif.Props.Tokens
import Verif.Proofs.DPoP
import Verif.Props.DPoP
import Verif.Proofs.DeviceRun
import Verif.Proofs.Serve
import Verif.Props.Device
import Verif.Go.Base64Dec
import Verif.Model.Lib
import Verif.Proofs.Lib
import Verif.Proofs.PushUri
import Verif.Props.Lib
import Verif.Props.Complete
import Verif.Model.Jose
import Verif.Model.ClientAuth
import Verif.Proofs.Jose
import Verif.Proofs.ClientAuth
import Verif.Props.ClientAuth
import Verif.Model.TokenGen
import Verif.Props.TokenGen
import Verif.Model.Sign
import Verif.Props.Sign
import Verif.Model.Http
import Verif.Spec.Http
import Verif.Proofs.Http
import Verif.Proofs.HttpDemo
import Verif.Props.Http
import Verif.Model.Verifiable
import Verif.Proofs.Base62
import Verif.Props.Verifiable
import Verif.Model.ResourceServer
import Verif.Props.ResourceServer
import Verif.Model.Wire
import Verif.Model.Pb
import Verif.Proofs.Wire
import Verif.Proofs.WireDecode
import Verif.Proofs.Pb
import Verif.Props.Wire
import Verif.Props.Services
import Verif.Model.RequestObject
import Verif.Spec.RequestObject
import Verif.Proofs.RequestObject
import Verif.Props.RequestObject
import Verif.Model.Client
import Verif.Proofs.Must
import Verif.Props.Client
import Verif.Props.ClientKeys
import Verif.Props.Attestation
import Verif.Model.Discovery
import Verif.Props.Discovery
import Verif.Props.Endpoints
import Verif.Props.Redirect
import Verif.Props.ProofUrl
import Verif.Props.LockedRand
import Verif.Props.Serializers
import Verif.Model.HttpSystem
import Verif.Spec.HttpSystem
import Verif.Proofs.Layers
import Verif.Proofs.HttpTrail
import Verif.Proofs.HttpSim
import Verif.Proofs.HttpRefines
import Verif.Proofs.HttpTransfer
import Verif.Proofs.HttpRun
import Verif.Props.Origin
import Verif.Props.HttpSystem
import Verif.Spec.HttpComplete
import Verif.Proofs.HttpServe
import Verif.Props.HttpComplete
import Verif.Spec.Errors
import Verif.Proofs.Errors
import Verif.Props.Errors
import Verif.Spec.AuthzErrors
import Verif.Proofs.AuthzErrors
import Verif.Props.AuthzErrors
import Verif.Props.Advertised
import Verif.Model.Url
import Verif.Spec.Uri
import Verif.Proofs.Url
import Verif.Proofs.UrlParse
import Verif.Proofs.UrlPrint
import Verif.Proofs.UrlQuery
import Verif.Props.Url
import Verif.Spec.ProofUri
import Verif.Props.ProofUri
import Verif.Model.Headers
import Verif.Proofs.Headers
import Verif.Props.Headers
import Verif.Model.Raw
import Verif.Spec.Form
import Verif.Proofs.Raw
import Verif.Props.Raw
import Verif.Spec.Blank
import Verif.Proofs.Blank
import Verif.Model.Uniuri
import Verif.Spec.Chance
import Verif.Proofs.Uniuri
import Verif.Props.Entropy
import Verif.Spec.ClientErrors
import Verif.Props.ClientErrors
import Verif.Spec.Challenge
import Verif.Model.Challenge
import Verif.Proofs.Challenge
import Verif.Props.Challenge
import Verif.Model.Timestamp
import Verif.Spec.Timestamp
import Verif.Props.Timestamp
import Verif.Spec.Locality
import Verif.Proofs.Locality
import Verif.Props.Locality
import Verif.Spec.Proto
import Verif.Proofs.Proto
import Verif.Props.Proto
import Verif.Spec.EndToEnd
import Verif.Proofs.HttpExec
import Verif.Props.EndToEnd
import Verif.Model.Registry
import Verif.Spec.Shipped
import Verif.Props.Shipped
import Verif.Model.Json
import Verif.Spec.Json
import Verif.Spec.Answers
import Verif.Proofs.Json
import Verif.Props.Json
import Verif.Spec.P384
import Verif.Spec.Jwk
import Verif.Model.Keys
import Verif.Proofs.P384
import Verif.Proofs.JsonRead
import Verif.Proofs.KeyPairs
import Verif.Props.Keys
import Verif.Model.PbMap
import Verif.Spec.ProtoMap
import Verif.Proofs.PbMap
import Verif.Proofs.ProtoMap
import Verif.Proofs.WireMerge
import Verif.Props.WireMap
import Verif.Props.WireMerge
import Verif.Spec.Merge
import Verif.Proofs.Merge
import Verif.Props.Merge
import Verif.Model.Profile
import Verif.Spec.Profile
import Verif.Props.Profile
import Verif.Proofs.HttpServe2
import Verif.Props.HttpComplete2
import Verif.Model.Resources
import Verif.Spec.Exchange
import Verif.Proofs.Exchange
import Verif.Props.Exchange
import Verif.Model.ClientStore
import Verif.Spec.ClientStore
import Verif.Proofs.ClientStore
import Verif.Props.ClientStore
import Verif.Spec.Schema
import Verif.Proofs.Schema
import Verif.Props.Schema
import Verif.Go.Sha256
import Verif.Go.Blake2b
import Verif.Model.Hashes
import Verif.Props.Hashes
import Verif.Replay.Basic
import Verif.Replay.Hash
import Verif.Replay.Code
import Verif.Replay.Grants
import Verif.Replay.Token
import Verif.Replay.Authorization
import Verif.Replay.Sdk
import Verif.Model.TokenStore
import Verif.Spec.TokenStore
import Verif.Proofs.TokenStore
import Verif.Proofs.TokenStoreRevoke
import Verif.Props.TokenStore
import Verif.Props.HeaderNames
import Verif.Props.UrlText
import Verif.Props.RawBody
