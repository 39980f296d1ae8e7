import Verif.Py.Base
import Verif.Py.Dict
import Verif.Py.DictLemmas
import Verif.Py.Base64
import Verif.Py.Base64Lemmas
import Verif.Py.Utf8
import Verif.Py.Utf8Lemmas
import Verif.Py.Val
import Verif.Py.FullDict
import Verif.Py.IntB64
import Verif.Py.IntB64Lemmas
import Verif.Py.Url
import Verif.Py.UrlLemmas
import Verif.Py.Json
import Verif.Py.JsonLemmas
import Verif.Py.Webtools
import Verif.Py.WebtoolsLemmas
import Verif.Props.Webtools
import Verif.Props.Headers
import Verif.Props.KeyLoad
import Verif.Jose.Crypto
import Verif.Jose.Jwk
import Verif.Jose.Jws
import Verif.Jose.Jwt
import Verif.Jose.Lemmas
import Verif.Jose.KeyLemmas
import Verif.Jose.DumpLemmas
import Verif.Spec.Jose
import Verif.Props.Toy
import Verif.Props.Jws
import Verif.Jose.JwtLemmas
import Verif.Props.Jwk
import Verif.Props.Jwt
import Verif.OAuth.Error
import Verif.OAuth.Http
import Verif.OAuth.Prog
import Verif.OAuth.Auth
import Verif.OAuth.Grants
import Verif.OAuth.Endpoints
import Verif.OAuth.Oidc
import Verif.OAuth.Provider
import Verif.OAuth.ProgLemmas
import Verif.Spec.OAuth
import Verif.OAuth.HttpLemmas
import Verif.OAuth.AuthLemmas
import Verif.Props.ToyOAuth
import Verif.Props.Auth
import Verif.Py.JsonEncode
import Verif.OAuth.HookLemmas
import Verif.OAuth.GrantLemmas
import Verif.OAuth.TokenLemmas
import Verif.OAuth.AuthorizeLemmas
import Verif.OAuth.OidcLemmas
import Verif.OAuth.TextLemmas
import Verif.OAuth.AnswerLemmas
import Verif.OAuth.RedirectLemmas
import Verif.OAuth.ConsentLemmas
import Verif.Props.ToyStore
import Verif.Props.Token
import Verif.Props.TokenAnswers
import Verif.Props.Authorize
import Verif.Props.Consent
import Verif.OAuth.RevokeLemmas
import Verif.OAuth.IdTokenLemmas
import Verif.Props.Revoke
import Verif.Props.Hooks
import Verif.Props.Oidc
import Verif.Spec.System
import Verif.OAuth.SystemLemmas
import Verif.Example.Adapter
import Verif.Example.AdapterLemmas
import Verif.Example.Sim
import Verif.Props.ToyExample
import Verif.Props.System
import Verif.Props.Example
import Verif.Props.ExampleAuthorize
import Verif.Props.ExampleTokens
import Verif.Example.Web
import Verif.Spec.Web
import Verif.Example.WebLemmas
import Verif.Example.WebSim
import Verif.Example.WebLogin
import Verif.Example.WebAnswer
import Verif.Props.ToyWeb
import Verif.Props.Web
import Verif.Props.WebLogin
import Verif.Props.WebAnswer
import Verif.Spec.Success
import Verif.OAuth.SuccessLemmas
import Verif.Props.TokenSuccess
import Verif.OAuth.ServeLemmas
import Verif.Props.Serve
import Verif.Spec.Sign
import Verif.Jose.SignLemmas
import Verif.Props.JwsExact
import Verif.Props.JwtExact
import Verif.Spec.OidcSuccess
import Verif.Spec.Work
import Verif.OAuth.IdTokenServe
import Verif.OAuth.WorkLemmas
import Verif.Props.OidcSuccess
import Verif.Spec.Disclosure
import Verif.Props.ExampleOidc
import Verif.Spec.Alone
import Verif.Example.AloneLemmas
import Verif.Example.StackAnswer
import Verif.Example.StackRun
import Verif.Props.ExampleFlow
import Verif.Props.KeySet
import Verif.Spec.Json
import Verif.Py.JsonGrammar
import Verif.Props.Json
import Verif.Spec.Errors
import Verif.OAuth.ErrorLemmas
import Verif.OAuth.ErrorAuthLemmas
import Verif.Props.Errors
import Verif.Spec.Secrets
import Verif.OAuth.SecretLemmas
import Verif.Example.SecretLemmas
import Verif.Props.Secrets
import Verif.Spec.Headers
import Verif.Py.HeaderLemmas
import Verif.Spec.Form
import Verif.Py.HostLemmas
import Verif.Spec.Stack
import Verif.Py.FormLemmas
import Verif.Props.Form
import Verif.Props.Stack
import Verif.Spec.WebFlow
import Verif.Example.WebFlowLemmas
import Verif.Props.WebFlow
import Verif.Props.IdToken
import Verif.Props.KeyParse
import Verif.Props.KeyExport
import Verif.Jose.Export
import Verif.Props.Challenge
import Verif.Example.Pages
import Verif.Example.PageLemmas
import Verif.Spec.Html
import Verif.Props.Pages
import Verif.Spec.Rfc7518
import Verif.Jose.Rfc7518Lemmas
import Verif.Props.Rfc7518
import Verif.Props.KeyStrength
import Verif.Props.KeyText
import Verif.Spec.Rfc6749
import Verif.OAuth.WireLemmas
import Verif.Props.Rfc6749
import Verif.Spec.Routes
import Verif.Example.RouteLemmas
import Verif.Props.Routes
import Verif.Real.Sha2
import Verif.Real.Rsa
import Verif.Real.Curve
import Verif.Real.Pem
import Verif.Spec.Ieee754
import Verif.Real.Float
import Verif.Real.FloatLemmas
import Verif.Real.Crypto
import Verif.Real.Vectors
import Verif.Spec.Rfc8017
import Verif.Real.RsaLemmas
import Verif.Real.PssLemmas
import Verif.Real.CryptoLemmas
import Verif.Real.Primes
import Verif.Real.CurvePrimes
import Verif.Spec.Fips180
import Verif.Spec.Fips186
import Verif.Real.EcLemmas
import Verif.Real.EcdsaLemmas
import Verif.Real.CurveOrder
import Verif.Props.Real
import Verif.Props.Ecdsa
import Verif.Props.ExampleSelf
import Verif.Props.Scopes
import Verif.Real.Sha2Lemmas
import Verif.Real.RsaSigLemmas
import Verif.Props.Sha2
import Verif.Props.Rsa
import Verif.Spec.JoseErrors
import Verif.Jose.ErrorLemmas
import Verif.Props.JoseErrors
import Verif.Props.ParseErrors
import Verif.Spec.Bits
import Verif.Spec.Encodings
import Verif.Spec.Asn1
import Verif.Py.BitLemmas
import Verif.Py.EncodingLemmas
import Verif.Props.Encodings
import Verif.Real.PemLemmas
import Verif.Props.Pem
import Verif.Props.AtHash
import Verif.Props.Float
import Verif.Props.Assumptions
import Verif.Spec.Isolation
import Verif.Props.Isolation
import Verif.Spec.KeyGeneration
import Verif.Props.Generated
import Verif.Spec.Foreign
import Verif.OAuth.ForeignLemmas
import Verif.Example.ForeignLemmas
import Verif.Props.Foreign
import Verif.Props.Persistence
import Verif.Spec.Lasting
import Verif.Props.Lasting
import Verif.Spec.KeySetErrors
import Verif.Props.KeySetErrors
import Verif.Spec.AnswerHeaders
import Verif.Props.AnswerHeaders
import Verif.Spec.TokenKinds
import Verif.Props.TokenKinds
import Verif.Props.IdTokenKey
import Verif.Props.Rotation
import Verif.Spec.Lifetimes
import Verif.Props.Lifetimes
import Verif.Spec.Busy
import Verif.Props.Busy
import Verif.Spec.CodeReplay
import Verif.Props.CodeReplay
import Verif.Spec.Recognised
import Verif.Props.Recognised
import Verif.Spec.Understood
import Verif.Props.Understood
import Verif.Spec.StandardScopes
import Verif.Props.StandardScopes
import Verif.Props.Demands
import Verif.Props.QueryUri
import Verif.Spec.Refuse
import Verif.OAuth.RefuseLemmas
import Verif.Props.Refused
import Verif.Spec.Agree
import Verif.Props.Agreed
import Verif.Props.Revoked
import Verif.Props.RefusedWeb
import Verif.Props.Subjects
