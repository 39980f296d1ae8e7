import Verif.OAuth.Auth

/-!
# Grants

`/repo/src/psion/oauth2/grants/`.
-/

namespace Psion

/-- What the OAuth half needs from outside: the cryptography and JSON environment, `hashlib`, and a few
operations of Python whose result is not determined by the library. -/
structure OEnv where
  cr : Crypto
  he : HashEnv
  /-- `hashlib.sha256(data).digest()`. -/
  sha256 : Bytes → Bytes
  /-- `str(value)` of a float, a list or a dictionary. -/
  strOf : Val → PyStr
  /-- `to_bytes(value, "ascii")` of a value that is not a text; `None` is refused by `sha256`. -/
  bytesOf : Val → Res Bytes
  /-- `list(set(a).intersection(b))`: the order is unspecified. -/
  inter : List PyStr → List PyStr → List PyStr
  inter_mem : ∀ a b x, x ∈ inter a b ↔ x ∈ a ∧ x ∈ b
  inter_nodup : ∀ a b, (inter a b).Nodup

/-- `Config`, `/repo/src/psion/oauth2/config.py:10-17`. A `Scope` is a `str`. -/
structure Config where
  issuer : PyStr
  scopes : List PyStr
  tokenLifespan : Int
  idTokenLifespan : Int
  errorUrl : PyStr

/-- `str(value)`. -/
def OEnv.str (env : OEnv) : Val → PyStr
  | .str s => s
  | .none => py! "None"
  | .bool b => if b then py! "True" else py! "False"
  | .int i => intStr i
  | v => env.strOf v

/-- One word of `str.split()` and the rest; structural on the text. -/
def splitWsAux : PyStr → PyStr → List PyStr
  | w, [] => if w = [] then [] else [w]
  | w, c :: s =>
    if isPySpace c then (if w = [] then splitWsAux [] s else w :: splitWsAux [] s)
    else splitWsAux (w ++ [c]) s

/-- `s.split()`. -/
def splitWs (s : PyStr) : List PyStr := splitWsAux [] s

/-- A list of texts as a value. -/
def strList (l : List PyStr) : Val := .list (l.map .str)

/-- `{**d, **hook}` if the hook returned a dictionary, `d` if it returned `None`. -/
def updateHook (d : Dict PyStr Val) : Option (Dict PyStr Val) → Dict PyStr Val
  | none => d
  | some e => Dict.update d e

/-- The `__hooks__` of a grant, `/repo/src/psion/oauth2/grants/base.py:52-57`. The hooks of a checkpoint form a set, so their
order here is arbitrary. A hook returns a dictionary or `None`. It is assumed not to modify its arguments. -/
structure Hooks where
  authorizationRequest : List (Dict PyStr PyStr → P (Option (Dict PyStr Val)))
  authorizationResponse : List (PyStr → Dict PyStr Val → Client → User → P (Option (Dict PyStr Val)))
  tokenRequest : List (Dict PyStr PyStr → P (Option (Dict PyStr Val)))
  tokenResponse : List (Dict PyStr Val → Dict PyStr Val → Client → User → P (Option (Dict PyStr Val)))

/-- `async for hook in self._execute_hook(name, ...): if hook: acc.update(hook)`,
`/repo/src/psion/oauth2/grants/base.py:109-126`. The hooks see the dictionary collected so far (only the token response
hooks get it as an argument). -/
def runHooks (acc : Dict PyStr Val) :
    List (Dict PyStr Val → P (Option (Dict PyStr Val))) → P (Dict PyStr Val)
  | [] => P.ret acc
  | h :: hs => P.bind (h acc) fun r => runHooks (updateHook acc r) hs

/-- `BaseGrant._create_token`, `/repo/src/psion/oauth2/grants/base.py:63-107`. -/
def createToken (cfg : Config) (access : PyStr) (refresh : Option PyStr) (scopes : Option (List PyStr)) :
    Dict PyStr Val :=
  fullDict
    [(py! "access_token", .str access), (py! "token_type", .str (py! "Bearer")),
      (py! "expires_in", .int cfg.tokenLifespan),
      (py! "refresh_token", match refresh with | some t => .str t | none => .none),
      (py! "scope", match scopes with
        | some (s :: l) => .str (joinWith [32] (s :: l))
        | _ => .none)]

/-- The loop of `_validate_requested_scopes`: the first scope that the provider does not support. -/
def unsupportedScope (cfg : Config) (scopes : List Val) : Option Val :=
  scopes.find? (fun v => !v.inList (cfg.scopes.map .str))

/-- `set(scopes).issubset(set(allowed))`. -/
def subsetVals (scopes : List Val) (allowed : List PyStr) : Bool :=
  scopes.all (fun v => v.inList (allowed.map .str))

/-- The state of an error raised by a grant. It only ends up in a URL, where `urlencode` applies `str`. -/
def stateText (env : OEnv) : Val → Option PyStr
  | .none => none
  | v => some (env.str v)

/-- `BaseGrant._validate_requested_scopes`, `/repo/src/psion/oauth2/grants/base.py:128-161`. -/
def validateRequestedScopes (env : OEnv) (cfg : Config) (scopes : Val) (client : Client) (state : Val) :
    ORes Unit :=
  if scopes.isNone then .ok ()
  else
    match liftRes (iterVal scopes) with
    | .error e => .error e
    | .ok l =>
      match unsupportedScope cfg l with
      | some v =>
        .error (.oauth (.mk' .invalidScope
          (some (py! "Unsupported scope \"" ++ env.str v ++ py! "\".")) (stateText env state)))
      | none =>
        match client.allowedScopes scopes with
        | .error e => .error e
        | .ok allowed =>
          if subsetVals l allowed then .ok ()
          else
            .error (.oauth (.mk' .invalidScope
              (some (py! "This client is not authorized to request this scope.")) (stateText env state)))

/-- A grant as the endpoints see it, `/repo/src/psion/oauth2/grants/base.py:14-57,163-202`. -/
structure Grant where
  authMethods : Option (List PyStr)
  grantType : Option PyStr
  responseType : Option PyStr
  authorize : Dict PyStr PyStr → Client → User → P PyStr
  token : Dict PyStr PyStr → Client → P (Dict PyStr Val)

/-! ## Authorization code -/

/-- `plain_challenge`, `/repo/src/psion/oauth2/grants/authorization_code.py:20-21`. -/
def plainChallenge (challenge : PyStr) (verifier : Val) : Bool := (Val.str challenge).pyEq verifier

/-- `S256_challenge`, `/repo/src/psion/oauth2/grants/authorization_code.py:24-28`. -/
def s256Challenge (env : OEnv) (challenge : PyStr) (verifier : Val) : Res Bool :=
  match (match verifier with | .str s => toBytesAscii s | v => env.bytesOf v) with
  | .error e => .error e
  | .ok b => .ok (decide (challenge = toStringB (b64urlEncode (env.sha256 b))))

/-- The keys of `AuthorizationCodeGrant._challenges`, `/repo/src/psion/oauth2/grants/authorization_code.py:51-54`. -/
def challengeMethods : List PyStr := [py! "plain", py! "S256"]

/-- `self._challenges.get(name)` applied to challenge and verifier; `none` if there is no such method. -/
def runChallenge (env : OEnv) (name challenge : PyStr) (verifier : Val) : Option (Res Bool) :=
  if name = py! "plain" then some (.ok (plainChallenge challenge verifier))
  else if name = py! "S256" then some (s256Challenge env challenge verifier)
  else none

/-- `raise InvalidRequest(description=..., state=...)`. -/
def invalidRequest (description : PyStr) (state : Option PyStr := none) : OExc :=
  .oauth (.mk' .invalidRequest (some description) state)

/-- `raise InvalidGrant(description=...)`. -/
def invalidGrant (description : PyStr) : OExc := .oauth (.mk' .invalidGrant (some description))

/-- A text parameter as a value; a missing one is `None`. -/
def optVal : Option PyStr → Val
  | some s => .str s
  | none => .none

/-- `data.get(k)` is missing or empty. -/
def blank (data : Dict PyStr PyStr) (k : PyStr) : Bool :=
  match Dict.get data k with
  | some (_ :: _) => false
  | _ => true

/-- The checks of `_validate_authorization_request`, `/repo/src/psion/oauth2/grants/authorization_code.py:155-188`: the
dictionary `response` before the hooks run. Parameters of a request are texts, so the `isinstance` checks succeed. -/
def authorizationParams (data : Dict PyStr PyStr) : ORes (Dict PyStr Val) :=
  let state := Dict.get data (py! "state")
  if blank data (py! "code_challenge") then .error (invalidRequest (py! "Invalid code challenge.") state)
  else
    let challenge := (Dict.get data (py! "code_challenge")).getD []
    if challenge.length < 43 ∨ challenge.length > 128 then
      .error (invalidRequest
        (py! "The length of the code challenge MUST be between [43, 128] bytes long.") state)
    else
      match Dict.get data (py! "code_challenge_method") with
      | none => .error (invalidRequest (py! "Unknown code challenge \"None\".") state)
      | some method =>
        if method ∉ challengeMethods then
          .error (invalidRequest (py! "Unknown code challenge \"" ++ method ++ py! "\".") state)
        else if blank data (py! "scope") then
          .error (invalidRequest (py! "Invalid parameter \"scope\".") state)
        else
          match Dict.get data (py! "redirect_uri") with
          | none => .error (.py .keyErr)
          | some uri =>
            .ok [(py! "code_challenge", .str challenge), (py! "code_challenge_method", .str method),
              (py! "redirect_uri", .str uri),
              (py! "scopes", strList (splitWs ((Dict.get data (py! "scope")).getD []))),
              (py! "state", optVal state)]

/-- `_validate_authorization_request`, `/repo/src/psion/oauth2/grants/authorization_code.py:113-194`. -/
def validateAuthorizationRequest (hooks : Hooks) (data : Dict PyStr PyStr) : P (Dict PyStr Val) :=
  P.bind (P.lift (authorizationParams data)) fun response =>
    runHooks response (hooks.authorizationRequest.map (fun h _ => h data))

/-- `d[k]` of a dictionary of values. -/
def item (d : Dict PyStr Val) (k : PyStr) : ORes Val := liftRes (Dict.getItem d k)

/-- `urlencode(url, **data)` for arbitrary values: `None` is left out, `str` is applied to everything else; a parameter
named `url` collides with the first parameter. -/
def urlencodeVals (env : OEnv) (url : PyStr) (data : Dict PyStr Val) : ORes PyStr :=
  if Dict.mem data (py! "url") then .error (.py .typeErr)
  else liftRes (urlencode url ((fullDict data).map (fun kv => (kv.1, some (env.str kv.2)))))

/-- `AuthorizationCodeGrant.authorize`, `/repo/src/psion/oauth2/grants/authorization_code.py:97-111`, with
`_create_authorization_response`, `/repo/src/psion/oauth2/grants/authorization_code.py:470-485`, which is one call of `urlencode`. -/
def codeAuthorize (env : OEnv) (cfg : Config) (hooks : Hooks) (data : Dict PyStr PyStr) (client : Client)
    (user : User) : P PyStr :=
  P.bind (validateAuthorizationRequest hooks data) fun data =>
  P.bind (P.lift (item data (py! "scopes"))) fun scopes =>
  P.bind (P.lift (validateRequestedScopes env cfg scopes client (dget data (py! "state")))) fun _ =>
  P.bind (P.call .choices64) fun choices =>
  P.bind (P.lift (liftRes (secretToken choices.val))) fun code =>
  P.bind (P.call (.saveCode code data client user)) fun _ =>
  P.bind (runHooks [(py! "code", .str code), (py! "state", dget data (py! "state"))]
    (hooks.authorizationResponse.map (fun h _ => h code data client user))) fun response =>
  P.bind (P.lift (item data (py! "redirect_uri"))) fun uri =>
  P.lift (urlencodeVals env (env.str uri) response)

/-- The checks of `_validate_token_request`, `/repo/src/psion/oauth2/grants/authorization_code.py:404-421`. -/
def codeTokenParams (data : Dict PyStr PyStr) : ORes (Dict PyStr Val) :=
  if blank data (py! "code") then .error (invalidRequest (py! "Invalid parameter \"code\"."))
  else if blank data (py! "redirect_uri") then
    .error (invalidRequest (py! "Invalid parameter \"redirect_uri\"."))
  else if blank data (py! "code_verifier") then
    .error (invalidRequest (py! "Invalid parameter \"code_verifier\"."))
  else
    .ok [(py! "code", optVal (Dict.get data (py! "code"))),
      (py! "redirect_uri", optVal (Dict.get data (py! "redirect_uri"))),
      (py! "code_verifier", optVal (Dict.get data (py! "code_verifier")))]

/-- `_validate_token_request`, `/repo/src/psion/oauth2/grants/authorization_code.py:322-427`. -/
def validateCodeTokenRequest (hooks : Hooks) (data : Dict PyStr PyStr) : P (Dict PyStr Val) :=
  P.bind (P.lift (codeTokenParams data)) fun response =>
    runHooks response (hooks.tokenRequest.map (fun h _ => h data))

/-- `_validate_authorization_code`, `/repo/src/psion/oauth2/grants/authorization_code.py:450-468`. -/
def validateAuthorizationCode (env : OEnv) (data : Dict PyStr Val) (code : AuthCode) (client : Client) :
    P Unit :=
  P.bind (P.lift (item data (py! "redirect_uri"))) fun uri =>
  if !uri.inList (client.redirectUris.map .str) then P.raise (invalidGrant (py! "Invalid Redirect URI."))
  else if client.clientId ≠ code.clientId then P.raise (invalidGrant (py! "Mismatching Client ID."))
  else if !uri.pyEq (.str code.redirectUri) then P.raise (invalidGrant (py! "Mismatching Redirect URI."))
  else if code.challengeMethod ∉ challengeMethods then
    P.raise (invalidRequest (py! "Unknown transform \"None\"."))
  else
    P.bind (P.lift (item data (py! "code_verifier"))) fun verifier =>
    match runChallenge env code.challengeMethod code.challenge verifier with
    | none => P.raise (.py .typeErr)
    | some (.error e) => P.raise (.py e)
    | some (.ok ok) =>
      if !ok then P.raise (invalidGrant (py! "PKCE challenge failure."))
      else
        P.bind (P.call .now) fun (now : Int) =>
        if now ≥ code.expiration then P.raise (invalidGrant (py! "Expired Authorization Code."))
        else P.ret ()

/-- `create_refresh_token(...) if "refresh_token" in client.get_grant_types() else None`. -/
def maybeRefresh (client : Client) (user : Option User) (scopes : List PyStr) : P (Option PyStr) :=
  if py! "refresh_token" ∈ client.grantTypes then
    P.bind (P.call (.createRefresh client user scopes)) fun t => P.ret (some t)
  else P.ret none

/-- The `try` block of `AuthorizationCodeGrant.token` after the validation of the request,
`/repo/src/psion/oauth2/grants/authorization_code.py:281-316`. -/
def codeTokenBody (env : OEnv) (cfg : Config) (hooks : Hooks) (data : Dict PyStr Val) (client : Client) :
    P (Dict PyStr Val) :=
  P.bind (P.lift (item data (py! "code"))) fun c =>
  P.bind (P.call (.getCode c)) fun found =>
  match found with
  | none => P.raise (invalidRequest (py! "Invalid Authorization Grant."))
  | some code =>
    P.bind (validateAuthorizationCode env data code client) fun _ =>
    P.bind (P.call (.findUser code.userId)) fun found =>
    match found with
    | none => P.raise (invalidRequest (py! "No user found for this code."))
    | some user =>
      P.bind (P.call (.createAccess client (.user (some user)) code.scopes)) fun access =>
      P.bind (maybeRefresh client (some user) code.scopes) fun refresh =>
      runHooks (createToken cfg access refresh (some code.scopes))
        (hooks.tokenResponse.map (fun h token => h token data client user))

/-- The `finally` block: `await self.adapter.delete_authorization_code(data["code"])`. -/
def deleteCode (code : ORes Val) : P Unit :=
  P.bind (P.lift code) fun c => P.call (.deleteCode c)

/-- `AuthorizationCodeGrant.token`, `/repo/src/psion/oauth2/grants/authorization_code.py:279-320`. In the `finally` block
`data` is the validated data if the validation succeeded, the data of the request otherwise. -/
def codeToken (env : OEnv) (cfg : Config) (hooks : Hooks) (data : Dict PyStr PyStr) (client : Client) :
    P (Dict PyStr Val) :=
  Prog.bind (validateCodeTokenRequest hooks data) fun r =>
    match r with
    | .error e =>
      P.finally_ (P.raise e)
        (deleteCode (match Dict.get data (py! "code") with
          | some c => .ok (.str c)
          | none => .error (.py .keyErr)))
    | .ok valid =>
      P.finally_ (codeTokenBody env cfg hooks valid client) (deleteCode (item valid (py! "code")))

/-- `AuthorizationCodeGrant`. -/
def authorizationCodeGrant (env : OEnv) (cfg : Config) (hooks : Hooks) : Grant where
  authMethods := none
  grantType := some (py! "authorization_code")
  responseType := some (py! "code")
  authorize := codeAuthorize env cfg hooks
  token := codeToken env cfg hooks

/-! ## Client credentials -/

/-- `scope.split() if scope else None`. -/
def scopeParam (data : Dict PyStr PyStr) : Val :=
  if blank data (py! "scope") then .none else strList (splitWs ((Dict.get data (py! "scope")).getD []))

/-- `granted if granted != requested else None`. -/
def scopesIfChanged (granted : List PyStr) (requested : Val) : Option (List PyStr) :=
  if (strList granted).pyEq requested then none else some granted

/-- `ClientCredentialsGrant.token` with `_validate_token_request`,
`/repo/src/psion/oauth2/grants/client_credentials.py:67-80,122-128`. -/
def credentialsToken (env : OEnv) (cfg : Config) (data : Dict PyStr PyStr) (client : Client) :
    P (Dict PyStr Val) :=
  let requested := scopeParam data
  P.bind (P.lift (validateRequestedScopes env cfg requested client .none)) fun _ =>
  P.bind (P.lift (client.allowedScopes requested)) fun scopes =>
  P.bind (P.call (.createAccess client (.client client) scopes)) fun token =>
  P.ret (createToken cfg token none (scopesIfChanged scopes requested))

/-- `authorize` is not overridden: it returns `None`, on which `RedirectResponse` raises `TypeError`. It cannot be reached
through the authorization endpoint, because the response type of these grants is `None`. -/
def noAuthorize (_ : Dict PyStr PyStr) (_ : Client) (_ : User) : P PyStr := P.raise (.py .typeErr)

/-- `ClientCredentialsGrant`, `/repo/src/psion/oauth2/grants/client_credentials.py:9-80`. -/
def clientCredentialsGrant (env : OEnv) (cfg : Config) : Grant where
  authMethods := some [py! "client_secret_basic", py! "client_secret_post"]
  grantType := some (py! "client_credentials")
  responseType := none
  authorize := noAuthorize
  token := credentialsToken env cfg

/-! ## Refresh token -/

/-- `RefreshTokenGrant._validate_requested_scopes`, `/repo/src/psion/oauth2/grants/refresh_token.py:59-67`. -/
def refreshScopes (env : OEnv) (cfg : Config) (token : RefreshTok) (requested : Option (List PyStr))
    (client : Client) : ORes (List PyStr) :=
  match validateRequestedScopes env cfg
      (match requested with | some l => strList l | none => .none) client .none with
  | .error e => .error e
  | .ok _ =>
    match requested with
    | none => .ok token.scopes
    | some [] => .ok token.scopes
    | some scopes =>
      if scopes.any (fun s => decide (s ∉ token.scopes)) then
        .error (.oauth (.mk' .invalidScope (some (py! "Invalid broader scope."))))
      else .ok (env.inter token.scopes scopes)

/-- `_validate_refresh_token`, `/repo/src/psion/oauth2/grants/refresh_token.py:273-277`. -/
def validateRefreshToken (token : RefreshTok) (client : Client) : P Unit :=
  if token.clientId ≠ client.clientId then P.raise (.oauth (.mk' .invalidClient))
  else
    P.bind (P.call .now) fun (now : Int) =>
    if now ≥ token.expiration then P.raise (invalidRequest (py! "Refresh Token expired."))
    else P.ret ()

/-- `RefreshTokenGrant.token` with `_validate_token_request`,
`/repo/src/psion/oauth2/grants/refresh_token.py:147-173,247-259`. -/
def refreshToken (env : OEnv) (cfg : Config) (data : Dict PyStr PyStr) (client : Client) :
    P (Dict PyStr Val) :=
  if blank data (py! "refresh_token") then
    P.raise (invalidRequest (py! "Invalid parameter \"refresh_token\"."))
  else
    P.bind (P.call (.getRefresh ((Dict.get data (py! "refresh_token")).getD []))) fun found =>
    match found with
    | none => P.raise (invalidRequest (py! "Invalid Refresh Token."))
    | some token =>
      P.bind (validateRefreshToken token client) fun _ =>
      P.bind (P.lift (refreshScopes env cfg token
        (if blank data (py! "scope") then none
          else some (splitWs ((Dict.get data (py! "scope")).getD []))) client)) fun scopes =>
      P.bind (P.lift (client.allowedScopes (strList scopes))) fun scopes =>
      P.bind (P.call (.findUser token.userId)) fun user =>
      P.bind (P.call (.createAccess client (.user user) scopes)) fun access =>
      P.bind (maybeRefresh client user scopes) fun refresh =>
      P.ret (createToken cfg access refresh (if scopes = token.scopes then none else some scopes))

/-- `RefreshTokenGrant`, `/repo/src/psion/oauth2/grants/refresh_token.py:12-25`. -/
def refreshTokenGrant (env : OEnv) (cfg : Config) : Grant where
  authMethods := none
  grantType := some (py! "refresh_token")
  responseType := none
  authorize := noAuthorize
  token := refreshToken env cfg

end Psion
