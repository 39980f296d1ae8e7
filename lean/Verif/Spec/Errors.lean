import Verif.Spec.OAuth

/-!
# Why a request is refused

The reasons for which the endpoints refuse a request, each with the value of `error` that the standards assign to it and with
what must have happened in an execution for the reason to apply. Independent of the code of the endpoints.
-/

namespace Psion.Spec

open Psion

/-- The parameter is missing or empty. -/
def Missing (data : Dict PyStr PyStr) (k : PyStr) : Prop := Dict.get data k = none ∨ Dict.get data k = some []

/-- The application raised the error `x`: the adapter, a hook, or a client. -/
def AppRaises (table : Hooks) (tr : List Ev) (x : OErr) : Prop :=
  (∃ o, (⟨o, .error (.oauth x)⟩ : Ev) ∈ tr) ∨
    (∃ f ∈ table.authorizationRequest, ∃ data tr', tr' ⊆ tr ∧ Exec (f data) tr' (.error (.oauth x))) ∨
    (∃ f ∈ table.authorizationResponse, ∃ code data c u tr', tr' ⊆ tr ∧ Exec (f code data c u) tr' (.error (.oauth x))) ∨
    (∃ f ∈ table.tokenRequest, ∃ data tr', tr' ⊆ tr ∧ Exec (f data) tr' (.error (.oauth x))) ∨
    (∃ f ∈ table.tokenResponse, ∃ token data c u tr', tr' ⊆ tr ∧ Exec (f token data c u) tr' (.error (.oauth x))) ∨
    ∃ id c v, FoundClient tr id c ∧ ScopeArg v ∧ c.allowedScopes v = .error (.oauth x)

/-- The client of the request was not authenticated: no allowed method finds credentials in the request, or an allowed method
finds some, but they belong to no client, or to a client with another secret or another method. -/
def Rejected (req : Request) (methods : Option (List PyStr)) (tr : List Ev) : Prop :=
  (∀ m id s, Allows methods m → ¬ Presents req m id s) ∨
    ∃ m id s, Allows methods m ∧ Presents req m id s ∧
      ((⟨.findClient id, .ok none⟩ : Ev) ∈ tr ∨
        ∃ c, FoundClient tr id c ∧ (c.secret ≠ s ∨ c.authMethod ≠ methodName m))

/-- The credentials of the Basic header belong to no client, or to a client with another secret or another method. -/
def BasicRejected (req : Request) (tr : List Ev) : Prop :=
  ∃ id s, Presents req .basic id s ∧
    ((⟨.findClient id, .ok none⟩ : Ev) ∈ tr ∨
      ∃ c, FoundClient tr id c ∧ (c.secret ≠ s ∨ c.authMethod ≠ py! "client_secret_basic"))

/-! ## Token endpoint -/

/-- Reasons for which the token endpoint refuses a request. -/
inductive TokenFault
  | noParameters | noGrantType | unknownGrantType | clientRejected | grantNotRegistered
  | noCode | noRedirectUri | noVerifier | codeUnknown | uriNotRegistered | codeOfOther | uriOfOther
  | transformUnknown | verifierWrong | codeExpired | codeUserUnknown
  | noRefreshToken | refreshUnknown | refreshOfOther | refreshExpired
  | scopeUnsupported | scopeNotAllowed | scopeBroader
  deriving DecidableEq

/-- The value of `error` for each reason according to RFC 6749 section 5.2 (and RFC 7636 section 4.6). -/
def TokenFault.rfc : TokenFault → PyStr
  | .noParameters | .noGrantType | .noCode | .noRedirectUri | .noVerifier | .noRefreshToken | .transformUnknown =>
    py! "invalid_request"
  | .unknownGrantType => py! "unsupported_grant_type"
  | .clientRejected => py! "invalid_client"
  | .grantNotRegistered => py! "unauthorized_client"
  | .codeUnknown | .uriNotRegistered | .codeOfOther | .uriOfOther | .verifierWrong | .codeExpired | .codeUserUnknown
  | .refreshUnknown | .refreshOfOther | .refreshExpired => py! "invalid_grant"
  | .scopeUnsupported | .scopeNotAllowed | .scopeBroader => py! "invalid_scope"

/-- The reasons for which the library reports something else than the standard: an unknown code or refresh token, a code of an
unknown user and an expired refresh token are `invalid_request`, a refresh token of another client is `invalid_client`. -/
def TokenFault.deviates : TokenFault → Option PyStr
  | .codeUnknown | .codeUserUnknown | .refreshUnknown | .refreshExpired => some (py! "invalid_request")
  | .refreshOfOther => some (py! "invalid_client")
  | _ => none

/-- The value of `error` that the library reports. -/
def TokenFault.sent (f : TokenFault) : PyStr := f.deviates.getD f.rfc

/-- The request asks for the grant `g` of the provider. -/
def AsksFor (p : Provider) (req : Request) (g : GrantClass) : Prop :=
  g ∈ p.grants ∧ Dict.get req.data (py! "grant_type") = some (grantName g)

/-- The request of the client `c` for the grant `g` has come through: the client is authenticated and registered for it. -/
def Admitted (p : Provider) (req : Request) (tr : List Ev) (g : GrantClass) (c : Client) : Prop :=
  AsksFor p req g ∧ Authenticated req (grantMethods g) tr c ∧ grantName g ∈ c.grantTypes

/-- The code of the request was found as `ac`. -/
def OfCode (req : Request) (tr : List Ev) (ac : AuthCode) : Prop :=
  ∃ code, Dict.get req.data (py! "code") = some code ∧ FoundCode tr (.str code) ac

/-- The refresh token of the request was found as `rt`. -/
def OfRefresh (req : Request) (tr : List Ev) (rt : RefreshTok) : Prop :=
  ∃ t, Dict.get req.data (py! "refresh_token") = some t ∧ FoundRefresh tr t rt

/-- A word of the requested scope satisfies `q`. -/
def SomeScope (req : Request) (q : List PyStr → PyStr → Prop) : Prop :=
  ∃ text ws, Dict.get req.data (py! "scope") = some text ∧ Words text ws ∧ ∃ s ∈ ws, q ws s

/-- The client does not allow the scope `s` of the requested scopes. -/
def NotAllowed (c : Client) (ws : List PyStr) (s : PyStr) : Prop :=
  ∃ allowed, c.allowedScopes (strList ws) = .ok allowed ∧ s ∉ allowed

/-- The grants in which a request can name scopes, with what precedes the check of the scopes. -/
def ScopeStage (p : Provider) (req : Request) (tr : List Ev) (c : Client) : Prop :=
  Admitted p req tr .clientCredentials c ∨ (Admitted p req tr .refreshToken c ∧ ∃ rt, OfRefresh req tr rt ∧ rt.clientId = c.clientId)

/-- The reason applies to the execution `tr` of the request. -/
def TokenFault.Holds (env : OEnv) (p : Provider) (req : Request) (tr : List Ev) : TokenFault → Prop
  | .noParameters => req.data = []
  | .noGrantType => Missing req.data (py! "grant_type")
  | .unknownGrantType => ∃ g, Dict.get req.data (py! "grant_type") = some g ∧ g ≠ [] ∧ ∀ k ∈ p.grants, grantName k ≠ g
  | .clientRejected => ∃ g, AsksFor p req g ∧ Rejected req (grantMethods g) tr
  | .grantNotRegistered => ∃ g c, AsksFor p req g ∧ Authenticated req (grantMethods g) tr c ∧ grantName g ∉ c.grantTypes
  | .noCode => ∃ c, Admitted p req tr .authorizationCode c ∧ Missing req.data (py! "code")
  | .noRedirectUri => ∃ c, Admitted p req tr .authorizationCode c ∧ Missing req.data (py! "redirect_uri")
  | .noVerifier => ∃ c, Admitted p req tr .authorizationCode c ∧ Missing req.data (py! "code_verifier")
  | .codeUnknown => ∃ c code, Admitted p req tr .authorizationCode c ∧ Dict.get req.data (py! "code") = some code ∧
      (⟨.getCode (.str code), .ok none⟩ : Ev) ∈ tr
  | .uriNotRegistered => ∃ c ac uri, Admitted p req tr .authorizationCode c ∧ OfCode req tr ac ∧
      Dict.get req.data (py! "redirect_uri") = some uri ∧ uri ∉ c.redirectUris
  | .codeOfOther => ∃ c ac, Admitted p req tr .authorizationCode c ∧ OfCode req tr ac ∧ ac.clientId ≠ c.clientId
  | .uriOfOther => ∃ c ac uri, Admitted p req tr .authorizationCode c ∧ OfCode req tr ac ∧
      Dict.get req.data (py! "redirect_uri") = some uri ∧ uri ≠ ac.redirectUri
  | .transformUnknown => ∃ c ac, Admitted p req tr .authorizationCode c ∧ OfCode req tr ac ∧
      ac.challengeMethod ≠ py! "plain" ∧ ac.challengeMethod ≠ py! "S256"
  | .verifierWrong => ∃ c ac v, Admitted p req tr .authorizationCode c ∧ OfCode req tr ac ∧
      Dict.get req.data (py! "code_verifier") = some v ∧ ¬ PkceOk env ac v
  | .codeExpired => ∃ c ac now, Admitted p req tr .authorizationCode c ∧ OfCode req tr ac ∧
      ReadClock tr now ∧ ac.expiration ≤ now
  | .codeUserUnknown => ∃ c ac, Admitted p req tr .authorizationCode c ∧ OfCode req tr ac ∧ FoundUser tr ac.userId none
  | .noRefreshToken => ∃ c, Admitted p req tr .refreshToken c ∧ Missing req.data (py! "refresh_token")
  | .refreshUnknown => ∃ c t, Admitted p req tr .refreshToken c ∧ Dict.get req.data (py! "refresh_token") = some t ∧
      (⟨.getRefresh t, .ok none⟩ : Ev) ∈ tr
  | .refreshOfOther => ∃ c rt, Admitted p req tr .refreshToken c ∧ OfRefresh req tr rt ∧ rt.clientId ≠ c.clientId
  | .refreshExpired => ∃ c rt now, Admitted p req tr .refreshToken c ∧ OfRefresh req tr rt ∧
      ReadClock tr now ∧ rt.expiration ≤ now
  | .scopeUnsupported => ∃ c, ScopeStage p req tr c ∧ SomeScope req (fun _ s => s ∉ p.cfg.scopes)
  | .scopeNotAllowed => ∃ c, ScopeStage p req tr c ∧ SomeScope req (NotAllowed c)
  | .scopeBroader => ∃ c rt, Admitted p req tr .refreshToken c ∧ OfRefresh req tr rt ∧
      SomeScope req (fun _ s => s ∉ rt.scopes)

/-! ## Authorization endpoint -/

/-- Reasons for which the authorization endpoint refuses a request. -/
inductive AuthFault
  | noParameters | noRedirectUri | noClientId | noResponseType | clientUnknown | uriNotRegistered
  | notLoggedIn | unknownResponseType | responseTypeNotRegistered | noChallenge | challengeLength | challengeMethod
  | noScope | scopeUnsupported | scopeNotAllowed
  deriving DecidableEq

/-- The value of `error` for each reason according to RFC 6749 section 4.1.2.1 (and RFC 7636 section 4.4.1). -/
def AuthFault.rfc : AuthFault → PyStr
  | .noParameters | .noRedirectUri | .noClientId | .noResponseType | .clientUnknown | .uriNotRegistered
  | .noChallenge | .challengeLength | .challengeMethod | .noScope => py! "invalid_request"
  | .notLoggedIn => py! "access_denied"
  | .unknownResponseType => py! "unsupported_response_type"
  | .responseTypeNotRegistered => py! "unauthorized_client"
  | .scopeUnsupported | .scopeNotAllowed => py! "invalid_scope"

/-- Reasons that must be shown to the user and not sent to the client, because the redirect URI is missing or cannot be
trusted. -/
def AuthFault.atHome : AuthFault → Bool
  | .noParameters | .noRedirectUri | .noClientId | .noResponseType | .clientUnknown | .uriNotRegistered => true
  | _ => false

/-- The client named in the request is `c`, according to the adapter. -/
def Named (req : Request) (tr : List Ev) (c : Client) : Prop :=
  ∃ id, Dict.get req.data (py! "client_id") = some id ∧ FoundClient tr id c

/-- The request of the client `c` has come through: redirect URI and response type are registered for it. -/
def Eligible (req : Request) (tr : List Ev) (c : Client) : Prop :=
  Named req tr c ∧ (∃ uri, Dict.get req.data (py! "redirect_uri") = some uri ∧ uri ∈ c.redirectUris) ∧
    ∃ rt, Dict.get req.data (py! "response_type") = some rt ∧ rt ∈ c.responseTypes

/-- The reason applies to the execution `tr` of the request. -/
def AuthFault.Holds (p : Provider) (req : Request) (tr : List Ev) : AuthFault → Prop
  | .noParameters => req.data = []
  | .noRedirectUri => Missing req.data (py! "redirect_uri")
  | .noClientId => Missing req.data (py! "client_id")
  | .noResponseType => Missing req.data (py! "response_type")
  | .clientUnknown => ∃ id, Dict.get req.data (py! "client_id") = some id ∧ (⟨.findClient id, .ok none⟩ : Ev) ∈ tr
  | .uriNotRegistered => ∃ c uri, Named req tr c ∧ Dict.get req.data (py! "redirect_uri") = some uri ∧ uri ∉ c.redirectUris
  | .notLoggedIn => req.user = none
  | .unknownResponseType => ∃ rt, Dict.get req.data (py! "response_type") = some rt ∧
      (rt = py! "code" → .authorizationCode ∉ p.grants)
  | .responseTypeNotRegistered => ∃ c rt, Named req tr c ∧ Dict.get req.data (py! "response_type") = some rt ∧
      rt ∉ c.responseTypes
  | .noChallenge => ∃ c, Eligible req tr c ∧ Missing req.data (py! "code_challenge")
  | .challengeLength => ∃ c ch, Eligible req tr c ∧ Dict.get req.data (py! "code_challenge") = some ch ∧
      (ch.length < 43 ∨ 128 < ch.length)
  | .challengeMethod => ∃ c, Eligible req tr c ∧
      ∀ m, Dict.get req.data (py! "code_challenge_method") = some m → m ≠ py! "plain" ∧ m ≠ py! "S256"
  | .noScope => ∃ c, Eligible req tr c ∧ Missing req.data (py! "scope")
  | .scopeUnsupported => ∃ c, Eligible req tr c ∧ SomeScope req (fun _ s => s ∉ p.cfg.scopes)
  | .scopeNotAllowed => ∃ c, Eligible req tr c ∧ SomeScope req (NotAllowed c)

/-- Where a refusal is sent: to the error page of the provider, or to the redirect URI of the request. -/
def AuthFault.Target (p : Provider) (req : Request) (f : AuthFault) (url : PyStr) : Prop :=
  if f.atHome then url = p.cfg.errorUrl else Dict.get req.data (py! "redirect_uri") = some url

end Psion.Spec
