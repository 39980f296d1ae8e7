import Verif.OAuth.Provider
import Verif.Py.JsonLemmas
import Verif.Spec.System

/-!
# The example application: storage

`/repo/example/adapter.py` and `/repo/example/models/`. The tables of the database are lists of rows; ids are compared as texts.
Every operation of the adapter takes effect at one point of time (the adapter itself sometimes performs two queries; what
happens between them is not modelled). Foreign keys and primary keys are enforced as the database does. All errors of the
database are the exception `ext`.
-/

namespace Psion.Example

open Psion Spec

/-- A row of `users`, `/repo/example/models/users.py:13-40`. `gender` is the value of the enumeration, `birthdate` the date in
ISO format, and `createdAt` and `updatedAt` are the results of `int(date.timestamp())`. The column `address` holds a JSON value, in
which no key of an object is repeated. -/
structure UserRow where
  id : PyStr
  password : PyStr
  givenName : PyStr
  middleName : Option PyStr
  familyName : PyStr
  nickname : Option PyStr
  preferredUsername : Option PyStr
  profile : Option PyStr
  picture : Option PyStr
  website : Option PyStr
  email : PyStr
  emailVerified : Bool
  gender : Option PyStr
  birthdate : Option PyStr
  zoneinfo : Option PyStr
  locale : Option PyStr
  phoneNumber : Option PyStr
  phoneNumberVerified : Bool
  address : Val
  addressWf : address.Wf
  createdAt : Int
  updatedAt : Int

/-- A row of `clients`, `/repo/example/models/clients.py:9-29`; columns that are never read are left out. -/
structure ClientRow where
  id : PyStr
  secret : Option PyStr
  scopes : List PyStr
  redirectUris : List PyStr
  authMethod : PyStr
  grantTypes : List PyStr
  responseTypes : List PyStr
  deriving DecidableEq

/-- `[scope for scope in self.scopes if scope in scopes]`. -/
def filterIn (scopes : Val) : List PyStr → Res (List PyStr)
  | [] => .ok []
  | s :: l =>
    match containsText s scopes with
    | .error e => .error e
    | .ok b =>
      match filterIn scopes l with
      | .error e => .error e
      | .ok r => .ok (if b then s :: r else r)

/-- `Client.get_allowed_scopes`, `/repo/example/models/clients.py:43-47`. -/
def ClientRow.allowedScopes (c : ClientRow) : Val → ORes (List PyStr)
  | .none => .ok c.scopes
  | v => liftRes (filterIn v c.scopes)

/-- The row as a `ClientMixin`, `/repo/example/models/clients.py:31-59`. -/
def ClientRow.client (c : ClientRow) : Client where
  clientId := c.id
  secret := c.secret
  allowedScopes := c.allowedScopes
  redirectUris := c.redirectUris
  authMethod := c.authMethod
  grantTypes := c.grantTypes
  responseTypes := c.responseTypes

/-- The row as a `UserMixin`, `/repo/example/models/users.py:39-40`. -/
def UserRow.user (u : UserRow) : User := ⟨u.id⟩

/-- The database. The key of a row of `authorization_codes` is the code. -/
structure Store where
  users : List UserRow
  clients : List ClientRow
  codes : List (PyStr × AuthCode)
  refresh : List RefreshTok

/-- What an operation takes from outside: the clock, in microseconds; `int(datetime.utcnow().timestamp())`, read twice when an
access token is made; random choices. -/
structure Draw where
  now : Int
  stamp : Int
  stamp2 : Int
  choices64 : { l : List (Fin 64) // l.length = 64 }
  choices32 : { l : List (Fin 64) // l.length = 32 }
  seed : Nat

/-- A failure of the database. -/
def dbError {α : Type} : ORes α := .error (.py (.ext 1))

/-- `User.get_or_none(id=id)`. -/
def Store.findUser (s : Store) (id : PyStr) : Option UserRow := s.users.find? (fun u => decide (u.id = id))

/-- `Client.get_or_none(id=id)`. -/
def Store.findClient (s : Store) (id : PyStr) : Option ClientRow := s.clients.find? (fun c => decide (c.id = id))

/-- `AuthorizationCode.get_or_none(id=code)`. Only a hook could replace the code by something else than a text; then nothing is
found. -/
def Store.findCode (s : Store) : Val → Option AuthCode
  | .str code => Dict.get s.codes code
  | _ => none

/-- `RefreshToken.get_or_none(refresh_token=token)`. -/
def Store.findRefresh (s : Store) (token : PyStr) : Option RefreshTok := s.refresh.find? (fun r => decide (r.token = token))

/-- The scopes of a code, a JSON column. The library stores a list of texts; anything else is not modelled (an error). -/
def textList : List Val → Option (List PyStr)
  | [] => some []
  | .str s :: l => (textList l).map (s :: ·)
  | _ => none

/-- `save_authorization_code`, `/repo/example/adapter.py:32-45` with `/repo/example/models/tokens.py:13-26`. All members of `data`
are required; the lengths of code, challenge, method and nonce are limited. -/
def saveCode (s : Store) (d : Draw) (code : PyStr) (data : Dict PyStr Val) (client : Client) (user : User) :
    Store × ORes Unit :=
  match Dict.get data (py! "redirect_uri"), Dict.get data (py! "scopes"), Dict.get data (py! "code_challenge"),
      Dict.get data (py! "code_challenge_method"), Dict.get data (py! "nonce") with
  | some (.str uri), some (.list scopes), some (.str challenge), some (.str method), some (.str nonce) =>
    match textList scopes with
    | none => (s, dbError)
    | some scopes =>
      if code.length ≤ 64 ∧ challenge.length ≤ 128 ∧ method.length ≤ 16 ∧ nonce.length ≤ 256 ∧
          Dict.get s.codes code = none ∧ (s.findClient client.clientId).isSome ∧ (s.findUser user.userId).isSome then
        ({ s with codes := (code, ⟨client.clientId, user.userId, uri, scopes, challenge, method, some nonce,
            d.now + 86400 * 1000000⟩) :: s.codes }, .ok ())
      else (s, dbError)
  | some _, some _, some _, some _, some _ => (s, dbError)
  | _, _, _, _, _ => (s, .error (.py .keyErr))

/-- `delete_authorization_code`, `/repo/example/adapter.py:50-52`. -/
def deleteCode (s : Store) : Val → Store
  | .str code => { s with codes := s.codes.filter (fun kv => decide (kv.1 ≠ code)) }
  | _ => s

/-- `SECRET_KEY`, `/repo/example/adapter.py:16-22`, see `exKey_parsed`. -/
def exKey : Jwk where
  data := [(py! "kty", .str (py! "oct")),
    (py! "k", .str (py! "c3VwZXJfc2VjcmV0X2tleV90aGF0X25vX29uZV93aWxsX2JlX2FibGVfdG9fZ3Vlc3M")),
    (py! "kid", .str (py! "secret_key_id"))]
  mat := .oct (by! "super_secret_key_that_no_one_will_be_able_to_guess")

/-- `resource_owner.id`; `None` has no attribute `id`. -/
def ownerId : Owner → Res PyStr
  | .client c => .ok c.clientId
  | .user (some u) => .ok u.userId
  | .user none => .error .attrErr

/-- The claims of an access token, `/repo/example/adapter.py:69-79`. -/
def accessClaims (stamp : Int) (sub jti : PyStr) (client : Client) (scopes : List PyStr) : Dict PyStr Val :=
  [(py! "iss", .str (py! "http://localhost:8000")), (py! "exp", .int (stamp + 3600)), (py! "sub", .str sub),
    (py! "iat", .int stamp), (py! "jti", .str jti), (py! "client_id", .str client.clientId),
    (py! "scope", .str (joinWith [32] scopes))]

/-- The header of an access token, `/repo/example/adapter.py:80`. -/
def accessHeader : Val := .dict [(py! "alg", .str (py! "HS256")), (py! "typ", .str (py! "at+jwt"))]

/-- `create_access_token`, `/repo/example/adapter.py:54-83`. -/
def createAccess (env : OEnv) (d : Draw) (client : Client) (owner : Owner) (scopes : List PyStr) : Res PyStr :=
  match ownerId owner with
  | .error e => .error e
  | .ok sub =>
    match secretToken d.choices32.val with
    | .error e => .error e
    | .ok jti =>
      match Jwt.init env.cr d.stamp2 (.dict (fullDict (accessClaims d.stamp sub jti client scopes))) accessHeader with
      | .error e => .error e
      | .ok jwt => jwt.encode env.cr exKey d.seed

/-- `scope in scopes`. -/
def has (scopes : List PyStr) (s : PyStr) : Bool := decide (s ∈ scopes)

/-- `get_userinfo`, `/repo/example/adapter.py:85-122`. -/
def userinfo (u : UserRow) (scopes : List PyStr) : Dict PyStr Val :=
  let data : Dict PyStr Val := [(py! "sub", .str u.id)]
  let data := if has scopes (py! "profile") then
      Dict.update data
        [(py! "given_name", .str u.givenName), (py! "middle_name", optVal u.middleName),
          (py! "family_name", .str u.familyName), (py! "nickname", optVal u.nickname),
          (py! "preferred_username", optVal u.preferredUsername), (py! "profile", optVal u.profile),
          (py! "picture", optVal u.picture), (py! "website", optVal u.website), (py! "gender", optVal u.gender),
          (py! "birthdate", optVal u.birthdate), (py! "zoneinfo", optVal u.zoneinfo), (py! "locale", optVal u.locale),
          (py! "created_at", .int u.createdAt), (py! "updated_at", .int u.updatedAt)]
    else data
  let data := if has scopes (py! "email") then
      Dict.update data [(py! "email", .str u.email), (py! "email_verified", .bool u.emailVerified)]
    else data
  let data := if has scopes (py! "address") then Dict.update data [(py! "address", u.address)] else data
  let data := if has scopes (py! "phone") then
      Dict.update data [(py! "phone_number", optVal u.phoneNumber),
        (py! "phone_number_verified", .bool u.phoneNumberVerified)]
    else data
  fullDict data

/-- `create_refresh_token`, `/repo/example/adapter.py:127-144`: `get_or_create` returns the token that the client already has for
the user, whatever its scopes and its expiration. -/
def createRefresh (s : Store) (d : Draw) (client : Client) (user : Option User) (scopes : List PyStr) :
    Store × ORes PyStr :=
  match user with
  | none => (s, .error (.py .attrErr))
  | some u =>
    match s.refresh.find? (fun r => decide (r.clientId = client.clientId ∧ r.userId = u.userId)) with
    | some r => (s, .ok r.token)
    | none =>
      match secretToken d.choices32.val with
      | .error e => (s, .error (.py e))
      | .ok token =>
        if (s.findRefresh token).isNone ∧ (s.findClient client.clientId).isSome ∧ (s.findUser u.userId).isSome then
          ({ s with refresh := ⟨token, client.clientId, u.userId, scopes, d.now + 14 * 86400 * 1000000⟩ :: s.refresh },
            .ok token)
        else (s, dbError)

/-- `revoke_token`, `/repo/example/adapter.py:149-155`. -/
def revoke (s : Store) (client : Client) (token : PyStr) : Store :=
  { s with refresh := s.refresh.filter (fun r => decide (¬ (r.token = token ∧ r.clientId = client.clientId))) }

/-- The operations of the adapter, and the clock and random numbers. The details of a user are read from the database when they
are used. -/
def exOp (env : OEnv) (d : Draw) (s : Store) : (o : Op) → Store × ORes o.Ans
  | .findUser id => (s, .ok ((s.findUser id).map UserRow.user))
  | .findClient id => (s, .ok ((s.findClient id).map ClientRow.client))
  | .saveCode code data client user => saveCode s d code data client user
  | .getCode v => (s, .ok (s.findCode v))
  | .deleteCode v => (deleteCode s v, .ok ())
  | .createAccess client owner scopes => (s, liftRes (createAccess env d client owner scopes))
  | .createRefresh client user scopes => createRefresh s d client user scopes
  | .getRefresh token => (s, .ok (s.findRefresh token))
  | .revoke client token _ => (revoke s client token, .ok ())
  | .getUserinfo user scopes =>
    match s.findUser user.userId with
    | none => (s, dbError)
    | some u => (s, .ok (userinfo u scopes))
  | .getKeyInfo => (s, .ok (exKey, py! "HS256"))
  | .now => (s, .ok d.now)
  | .stamp => (s, .ok d.stamp)
  | .choices64 => (s, .ok d.choices64)
  | .seed => (s, .ok d.seed)

/-- One operation of a request: it succeeds or fails as above; or the database fails or the task is cancelled, before or after the
effect took place. -/
def ExStep (env : OEnv) (s : Store) (ev : Ev) (s' : Store) : Prop :=
  ∃ d, exOp env d s ev.op = (s', ev.ans) ∨
    (∃ n, ev.ans = .error (.py (.ext n))) ∧ (s' = s ∨ s' = (exOp env d s ev.op).1)

/-- What other parts of the application (login, logout, administration) may do: change users and clients, and remove codes and
refresh tokens. -/
structure Outside (s s' : Store) : Prop where
  codes : s'.codes.Sublist s.codes
  refresh : s'.refresh.Sublist s.refresh

/-- The refresh tokens that the logout view deletes, `/repo/example/views/auth.py:103-106`. -/
def logout (s : Store) (userId : PyStr) : Store :=
  { s with refresh := s.refresh.filter (fun r => decide (r.userId ≠ userId)) }

/-- A history of the example application between two states of the database. -/
inductive ExRun (env : OEnv) : Store → List Step → Store → Prop
  | nil (s : Store) : ExRun env s [] s
  | step (s s' s'' : Store) (i : Nat) (ev : Ev) (h : List Step) :
      ExStep env s ev s' → ExRun env s' h s'' → ExRun env s ((i, ev) :: h) s''
  | outside (s s' s'' : Store) (h : List Step) : Outside s s' → ExRun env s' h s'' → ExRun env s h s''

/-- The provider, `/repo/example/provider.py:16-31` with the defaults of `/repo/src/psion/oauth2/providers/base.py:28-29`. -/
def exProvider : Provider where
  cfg :=
    { issuer := py! "http://localhost:8000"
      scopes := [py! "openid", py! "profile", py! "email", py! "phone", py! "address"]
      tokenLifespan := 3600
      idTokenLifespan := 36000
      errorUrl := py! "/connect/error" }
  grants := [.authorizationCode, .clientCredentials, .refreshToken]

/-- The hooks after `/repo/example/provider.py:33`. -/
def exHooks (env : OEnv) : Hooks := addHook Hooks.empty exProvider (some .authorizationCode) (oidcHook env)

end Psion.Example
