import Verif.OAuth.Grants

/-!
# Endpoints

`/repo/src/psion/oauth2/endpoints/`.
-/

namespace Psion

/-- `dict.pop(key)`: the dictionary without the key. -/
def Dict.del {κ α : Type} [DecidableEq κ] (d : Dict κ α) (k : κ) : Dict κ α := d.filter (fun kv => kv.1 ≠ k)

/-! ## Authorization endpoint -/

/-- `AuthorizationEndpoint._validate_request`, `/repo/src/psion/oauth2/endpoints/authorization.py:152-178`. -/
def validateRequest (data : Dict PyStr PyStr) : ORes Unit :=
  if data = [] then .error (.oauth (.fatal (py! "invalid_request") (py! "Missing request parameters.")))
  else if blank data (py! "redirect_uri") then
    .error (.oauth (.fatal (py! "invalid_request") (py! "Missing required parameter \"redirect_uri\".")))
  else if blank data (py! "client_id") then
    .error (.oauth (.fatal (py! "invalid_request") (py! "Missing required parameter \"client_id\".")))
  else if blank data (py! "response_type") then
    .error (.oauth (.fatal (py! "invalid_request") (py! "Missing required parameter \"response_type\".")))
  else .ok ()

/-- `_validate_response_type`, `/repo/src/psion/oauth2/endpoints/authorization.py:200-207`. -/
def validateResponseType (grants : List Grant) (responseType : PyStr) (state : Option PyStr) : ORes Grant :=
  match grants.find? (fun g => decide (g.responseType = some responseType)) with
  | some g => .ok g
  | none =>
    .error (.oauth (.mk' .unsupportedResponseType
      (some (py! "Unsupported response_type \"" ++ responseType ++ py! "\".")) state))

/-- `_validate_client`, `/repo/src/psion/oauth2/endpoints/authorization.py:243-256`. -/
def validateClient (clientId redirectUri responseType : PyStr) (state : Option PyStr) : P Client :=
  P.bind (P.call (.findClient clientId)) fun found =>
  match found with
  | none => P.raise (.oauth (.fatal (py! "invalid_request") (py! "Invalid client.")))
  | some client =>
    if redirectUri ∉ client.redirectUris then
      P.raise (.oauth (.fatal (py! "invalid_request") (py! "Invalid Redirect URI.")))
    else if responseType ∉ client.responseTypes then
      P.raise (.oauth (.mk' .unauthorizedClient none state))
    else P.ret client

/-- `data[k]` of the request. -/
def param (data : Dict PyStr PyStr) (k : PyStr) : ORes PyStr := liftRes (Dict.getItem data k)

/-- `urlencode(url, **exc.dump())` and `RedirectResponse(url, headers=exc.headers)`. -/
def errorRedirect (url : PyStr) (e : OErr) : ORes Response :=
  match urlencode url e.dump with
  | .error x => .error (.py x)
  | .ok u => liftRes (redirectResponse u e.headers)

/-- The two `except` clauses of the authorization endpoint,
`/repo/src/psion/oauth2/endpoints/authorization.py:96-101,137-142`. -/
def authorizationError (cfg : Config) (data : Dict PyStr PyStr) (e : OErr) : ORes Response :=
  if e.kind = .fatal then errorRedirect cfg.errorUrl e
  else
    match param data (py! "redirect_uri") with
    | .error x => .error x
    | .ok uri => errorRedirect uri e

/-- The `try` block of `AuthorizationEndpoint.__call__`, `/repo/src/psion/oauth2/endpoints/authorization.py:78-95`. -/
def authorizeBody (grants : List Grant) (req : Request) : P Response :=
  let data := req.data
  P.bind (P.lift (validateRequest data)) fun _ =>
  match req.user with
  | none => P.raise (.oauth (.mk' .accessDenied))
  | some user =>
    P.bind (P.lift (param data (py! "response_type"))) fun responseType =>
    let data := Dict.del data (py! "response_type")
    let state := Dict.get data (py! "state")
    P.bind (P.lift (validateResponseType grants responseType state)) fun grant =>
    P.bind (P.lift (param data (py! "client_id"))) fun clientId =>
    P.bind (P.lift (param data (py! "redirect_uri"))) fun redirectUri =>
    P.bind (validateClient clientId redirectUri (grant.responseType.getD []) state) fun client =>
    P.bind (grant.authorize data client user) fun url =>
    P.lift (liftRes (redirectResponse url []))

/-- `AuthorizationEndpoint.__call__`, `/repo/src/psion/oauth2/endpoints/authorization.py:75-101`. -/
def authorizeEndpoint (cfg : Config) (grants : List Grant) (req : Request) : P Response :=
  P.catchOAuth (authorizeBody grants req) (fun e => P.lift (authorizationError cfg req.data e))

/-- Result of `get_consent_data`. -/
inductive Consent
  | data (client : Client) (scopes : List PyStr)
  | redirect (r : Response)

/-- The `try` block of `get_consent_data`, `/repo/src/psion/oauth2/endpoints/authorization.py:118-136`. A `Scope`,
`/repo/src/psion/oauth2/models/scopes.py:1-30`, is the text of its name; the description is never given. -/
def consentBody (req : Request) : P Consent :=
  let data := req.data
  P.bind (P.lift (validateRequest data)) fun _ =>
  P.bind (P.lift (param data (py! "client_id"))) fun clientId =>
  P.bind (P.lift (param data (py! "redirect_uri"))) fun redirectUri =>
  P.bind (P.lift (param data (py! "response_type"))) fun responseType =>
  P.bind (validateClient clientId redirectUri responseType (Dict.get data (py! "state"))) fun client =>
  if blank data (py! "scope") then
    P.raise (invalidRequest (py! "Missing required parameter \"scope\"."))
  else
    P.bind (P.lift (client.allowedScopes
      (strList (splitWs ((Dict.get data (py! "scope")).getD []))))) fun scopes =>
    P.ret (.data client scopes)

/-- `AuthorizationEndpoint.get_consent_data`, `/repo/src/psion/oauth2/endpoints/authorization.py:115-142`. -/
def consentEndpoint (cfg : Config) (req : Request) : P Consent :=
  P.catchOAuth (consentBody req) (fun e =>
    P.bind (P.lift (authorizationError cfg req.data e)) fun r => P.ret (.redirect r))

/-! ## Token endpoint -/

/-- `TokenEndpoint._headers`, `/repo/src/psion/oauth2/endpoints/token.py:30`. -/
def noStoreHeaders : Dict PyStr PyStr :=
  [(py! "Cache-Control", py! "no-store"), (py! "Pragma", py! "no-cache")]

/-- `_validate_grant_type`, `/repo/src/psion/oauth2/endpoints/token.py:100-109`. -/
def validateGrantType (grants : List Grant) (grantType : Option PyStr) : ORes Grant :=
  match grantType with
  | some (c :: s) =>
    match grants.find? (fun g => decide (g.grantType = some (c :: s))) with
    | some g => .ok g
    | none =>
      .error (.oauth (.mk' .unsupportedGrantType
        (some (py! "Unsupported grant_type \"" ++ (c :: s) ++ py! "\"."))))
  | _ => .error (invalidRequest (py! "Invalid parameter \"grant_type\"."))

/-- The `try` block of `TokenEndpoint.__call__`, `/repo/src/psion/oauth2/endpoints/token.py:66-78`. -/
def tokenBody (env : OEnv) (grants : List Grant) (req : Request) : P Response :=
  let data := req.data
  if data = [] then P.raise (invalidRequest (py! "Missing request parameters."))
  else
    P.bind (P.lift (validateGrantType grants (Dict.get data (py! "grant_type")))) fun grant =>
    P.bind (authenticate req grant.authMethods) fun client =>
    if grant.grantType.getD [] ∉ client.grantTypes then P.raise (.oauth (.mk' .unauthorizedClient))
    else
      P.bind (grant.token (Dict.del data (py! "grant_type")) client) fun response =>
      P.lift (liftRes (jsonResponse env.cr.fe 200 noStoreHeaders (.dict response)))

/-- `TokenEndpoint.__call__`, `/repo/src/psion/oauth2/endpoints/token.py:65-82`. -/
def tokenEndpoint (env : OEnv) (grants : List Grant) (req : Request) : P Response :=
  P.catchOAuth (tokenBody env grants req) (fun e =>
    P.lift (liftRes (jsonResponse env.cr.fe 400 (Dict.update e.headers noStoreHeaders)
      (.dict (ndictVal e.dump)))))

/-! ## Revocation endpoint -/

/-- `RevocationEndpoint.__supported_tokens__`, `/repo/src/psion/oauth2/endpoints/revocation.py:28`. -/
def supportedTokens : List PyStr := [py! "access_token", py! "refresh_token"]

/-- The `try` block of `RevocationEndpoint.__call__`, `/repo/src/psion/oauth2/endpoints/revocation.py:106-122`.
`none` is the `return` without value. -/
def revokeBody (env : OEnv) (req : Request) : P (Option Response) :=
  P.bind (authenticate req none) fun client =>
  let data := req.form
  let hint := Dict.get data (py! "token_type_hint")
  if blank data (py! "token") then P.ret none
  else if !blank data (py! "token_type_hint") && decide (hint.getD [] ∉ supportedTokens) then
    P.raise (.oauth (.mk' .unsupportedTokenType))
  else
    P.bind (P.call (.revoke client ((Dict.get data (py! "token")).getD []) hint)) fun _ =>
    P.bind (P.lift (liftRes (jsonResponse env.cr.fe 200 [] .none))) fun r => P.ret (some r)

/-- `RevocationEndpoint.__call__`, `/repo/src/psion/oauth2/endpoints/revocation.py:105-126`. -/
def revokeEndpoint (env : OEnv) (req : Request) : P (Option Response) :=
  P.catchOAuth (revokeBody env req) (fun e =>
    P.bind (P.lift (liftRes (jsonResponse env.cr.fe (if e.kind = .invalidClient then 401 else 400) e.headers
      (.dict (ndictVal e.dump))))) fun r => P.ret (some r))

end Psion
