import Verif.OAuth.Prog

/-!
# Client authentication

`/repo/src/psion/oauth2/authentication/`.
-/

namespace Psion

/-- The authentication methods, in the order in which their classes are defined and therefore tried,
`/repo/src/psion/oauth2/authentication/methods/__init__.py`. -/
inductive AuthMethod
  | basic | post | none_
  deriving DecidableEq, Repr

/-- `__method__`. -/
def AuthMethod.name : AuthMethod → PyStr
  | .basic => py! "client_secret_basic"
  | .post => py! "client_secret_post"
  | .none_ => py! "none"

/-- `BaseAuthentication.__subclasses__()`. Methods defined by an application are not modelled. -/
def AuthMethod.all : List AuthMethod := [.basic, .post, .none_]

/-- `f'This Client is not allowed to use the method "{self.__method__}".'`. -/
def AuthMethod.notAllowed (m : AuthMethod) : PyStr :=
  py! "This Client is not allowed to use the method \"" ++ m.name ++ py! "\"."

/-- The common end of the three `authenticate` methods: look up the client, compare the secret, compare the
registered method. -/
def checkClient (m : AuthMethod) (headers : Dict PyStr PyStr) (id : PyStr) (secret : Option PyStr) :
    P (Option Client) :=
  P.bind (P.call (.findClient id)) fun client =>
    match client with
    | none => P.raise (.oauth (.mk' .invalidClient (some (py! "Client not found.")) none headers))
    | some c =>
      if c.secret ≠ secret then
        P.raise (.oauth (.mk' .invalidClient (some (py! "Mismatching Client Secret.")) none headers))
      else if c.authMethod ≠ m.name then
        P.raise (.oauth (.mk' .invalidClient (some m.notAllowed) none headers))
      else P.ret (some c)

/-- `ClientSecretBasic.authenticate`, `/repo/src/psion/oauth2/authentication/methods/client_secret_basic.py:25-46`. -/
def authBasic (req : Request) : P (Option Client) :=
  P.bind (P.lift (liftRes (getBasicAuthorization req.headers))) fun cred =>
    match cred with
    | none => P.ret none
    | some (id, secret) =>
      if id = [] ∨ secret = [] then P.ret none
      else checkClient .basic [(py! "WWW-Authenticate", py! "Basic")] id (some secret)

/-- `ClientSecretPost.authenticate`, `/repo/src/psion/oauth2/authentication/methods/client_secret_post.py:31-52`. -/
def authPost (req : Request) : P (Option Client) :=
  match Dict.get req.form (py! "client_id"), Dict.get req.form (py! "client_secret") with
  | some id, some secret =>
    if id = [] ∨ secret = [] then P.ret none else checkClient .post [] id (some secret)
  | _, _ => P.ret none

/-- `None_.authenticate`, `/repo/src/psion/oauth2/authentication/methods/none.py:29-50`. -/
def authNone (req : Request) : P (Option Client) :=
  match Dict.get req.form (py! "client_id"), Dict.get req.form (py! "client_secret") with
  | some id, none => if id = [] then P.ret none else checkClient .none_ [] id none
  | _, _ => P.ret none

/-- `method.authenticate(request)`. -/
def AuthMethod.run (req : Request) : AuthMethod → P (Option Client)
  | .basic => authBasic req
  | .post => authPost req
  | .none_ => authNone req

/-- `not methods or method.__method__ in methods`. -/
def methodEnabled (methods : Option (List PyStr)) (m : AuthMethod) : Bool :=
  match methods with
  | none => true
  | some [] => true
  | some l => decide (m.name ∈ l)

/-- The loop of `ClientAuthentication.__call__`. -/
def authLoop (req : Request) (methods : Option (List PyStr)) : List AuthMethod → P Client
  | [] => P.raise (.oauth (.mk' .invalidClient))
  | m :: ms =>
    if methodEnabled methods m then
      P.bind (m.run req) fun client =>
        match client with
        | none => authLoop req methods ms
        | some c => P.ret c
    else authLoop req methods ms

/-- `ClientAuthentication.__call__`, `/repo/src/psion/oauth2/authentication/client_authentication.py:34-65`. -/
def authenticate (req : Request) (methods : Option (List PyStr)) : P Client :=
  authLoop req methods AuthMethod.all

end Psion
