import Verif.OAuth.Endpoints

/-!
# OpenID Connect

`/repo/src/psion/oidc/`.
-/

namespace Psion

/-- `IDToken._validate_auth_time`, `/repo/src/psion/oidc/claims.py:50-57`. The first check can never fail (it compares
`max_age` with itself). -/
def checkMaxAge (claims : Dict PyStr Val) : Res Unit :=
  match dget claims (py! "max_age") with
  | .none => .ok ()
  | .int _ => .ok ()
  | _ => .error (.jose .invalidJWTClaim)

/-- `IDToken._validate_nonce`, `/repo/src/psion/oidc/claims.py:59-62`. -/
def checkNonce (options claims : Dict PyStr Val) : Res Unit :=
  if (dget options (py! "nonce")).truthy && !(dget options (py! "nonce")).pyEq (dget claims (py! "nonce")) then
    .error (.jose .invalidJWTClaim)
  else .ok ()

/-- `IDToken(claims, now, options)`, `/repo/src/psion/oidc/claims.py:41-62` with `/repo/src/psion/jose/jwt.py:28-39`. -/
def idTokenInit (now : Int) (claims : Dict PyStr Val) (options : Val) : Res (Dict PyStr Val) :=
  if claims = [] then .error (.jose .invalidJWTClaim)
  else
    match validateDefaultClaims now claims with
    | .error e => .error e
    | .ok _ =>
      match checkMaxAge claims with
      | .error e => .error e
      | .ok _ =>
        match checkNonce (match options with | .dict o => o | _ => []) claims with
        | .error e => .error e
        | .ok _ => claimsInit now (.dict claims) options

/-- `AuthorizationCodeFlow.authorization_request`, `/repo/src/psion/oidc/flows/authorization_code.py:28-33`. -/
def oidcAuthorizationRequest (data : Dict PyStr PyStr) : P (Option (Dict PyStr Val)) :=
  if blank data (py! "nonce") then P.ret none
  else P.ret (some [(py! "nonce", optVal (Dict.get data (py! "nonce")))])

/-- `needle in haystack` for texts. -/
def isSubstring (needle : PyStr) : PyStr → Bool
  | [] => needle.isEmpty
  | c :: s => needle.isPrefixOf (c :: s) || isSubstring needle s

/-- `"openid" in value`. -/
def containsText (needle : PyStr) : Val → Res Bool
  | .str s => .ok (isSubstring needle s)
  | .list l => .ok (Val.inList (.str needle) l)
  | .dict d => .ok (Dict.mem d needle)
  | _ => .error .typeErr

/-- `value.split()`. -/
def splitVal : Val → Res (List PyStr)
  | .str s => .ok (splitWs s)
  | _ => .error .attrErr

/-- `create_half_hash(token["access_token"], alg)`. Only another hook could have replaced the access token by something else
than a text; this is modelled as a `TypeError`. -/
def atHash (env : OEnv) (token : Dict PyStr Val) (alg : PyStr) : Res PyStr :=
  match Dict.get token (py! "access_token") with
  | none => .error .keyErr
  | some (.str t) => createHalfHash env.he t alg
  | some _ => .error .typeErr

/-- The claims handed to `IDToken`, `/repo/src/psion/oidc/flows/authorization_code.py:73-82`: the user information overrides
the claims of the provider. -/
def idTokenClaims (cfg : Config) (client : Client) (now : Int) (atHash : PyStr) (userinfo : Dict PyStr Val) :
    Dict PyStr Val :=
  Dict.update
    [(py! "iss", .str cfg.issuer), (py! "aud", .str client.clientId),
      (py! "exp", .int (now + cfg.idTokenLifespan)), (py! "iat", .int now), (py! "at_hash", .str atHash)]
    userinfo

/-- The header handed to `JsonWebToken`, `/repo/src/psion/oidc/flows/authorization_code.py:83-86`. -/
def idTokenHeader (alg : PyStr) (kid : Val) : Val :=
  .dict [(py! "alg", .str alg), (py! "typ", .str (py! "JWT")), (py! "kid", kid)]

/-- `_generate_id_token`, `/repo/src/psion/oidc/flows/authorization_code.py:67-88`. The clock is read three times: for the
claims, when the claims are validated, and again when the token is built from them. -/
def generateIdToken (env : OEnv) (cfg : Config) (token : Dict PyStr Val) (client : Client) (user : User) :
    P PyStr :=
  P.bind (P.call .getKeyInfo) fun (info : Jwk × PyStr) =>
  P.bind (P.lift (item token (py! "scope"))) fun scope =>
  P.bind (P.lift (liftRes (splitVal scope))) fun scopes =>
  P.bind (P.call (.getUserinfo user scopes)) fun (userinfo : Dict PyStr Val) =>
  P.bind (P.call .stamp) fun (now : Int) =>
  P.bind (P.lift (liftRes (atHash env token info.2))) fun hash =>
  P.bind (P.call .stamp) fun (now1 : Int) =>
  P.bind (P.lift (liftRes (idTokenInit now1 (idTokenClaims cfg client now hash userinfo) .none))) fun claims =>
  P.bind (P.lift (item info.1.data (py! "kid"))) fun kid =>
  P.bind (P.call .stamp) fun (now2 : Int) =>
  P.bind (P.lift (liftRes (Jwt.init env.cr now2 (.dict claims) (idTokenHeader info.2 kid)))) fun jwt =>
  P.bind (P.call .seed) fun (seed : Nat) =>
  P.lift (liftRes (jwt.encode env.cr info.1 seed))

/-- `AuthorizationCodeFlow.token_response`, `/repo/src/psion/oidc/flows/authorization_code.py:36-41`. -/
def oidcTokenResponse (env : OEnv) (cfg : Config) (token _data : Dict PyStr Val) (client : Client)
    (user : User) : P (Option (Dict PyStr Val)) :=
  P.bind (P.lift (item token (py! "scope"))) fun scope =>
  P.bind (P.lift (liftRes (containsText (py! "openid") scope))) fun isOpenid =>
  if isOpenid then
    P.bind (generateIdToken env cfg token client user) fun t => P.ret (some [(py! "id_token", .str t)])
  else P.ret none

end Psion
