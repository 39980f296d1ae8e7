import Verif.OAuth.Error

/-!
# Requests and responses

`/repo/src/psion/oauth2/models/http.py`.
-/

namespace Psion

/-- `UserMixin`: the library only uses the id of a user. -/
structure User where
  userId : PyStr
  deriving DecidableEq, Repr

/-- `ClientMixin`, `/repo/src/psion/oauth2/mixins.py:108-202`. The getters are assumed to return the same values
whenever they are called on the same object. `allowedScopes` takes whatever the library passes to
`get_allowed_scopes` (a list of texts, or `None`) and may raise. -/
structure Client where
  clientId : PyStr
  secret : Option PyStr
  allowedScopes : Val → ORes (List PyStr)
  redirectUris : List PyStr
  authMethod : PyStr
  grantTypes : List PyStr
  responseTypes : List PyStr

/-- `AuthorizationCodeMixin`, `/repo/src/psion/oauth2/mixins.py:8-105`. Times are in an unspecified unit. -/
structure AuthCode where
  clientId : PyStr
  userId : PyStr
  redirectUri : PyStr
  scopes : List PyStr
  challenge : PyStr
  challengeMethod : PyStr
  nonce : Option PyStr
  expiration : Int
  deriving DecidableEq, Repr

/-- `RefreshTokenMixin`, `/repo/src/psion/oauth2/mixins.py:205-261`. -/
structure RefreshTok where
  token : PyStr
  clientId : PyStr
  userId : PyStr
  scopes : List PyStr
  expiration : Int
  deriving DecidableEq, Repr

/-- `Request`, `/repo/src/psion/oauth2/models/http.py:12-71`. The attributes `path` and `fragment` are not used by the
library; the attribute `client` is only written. -/
structure Request where
  method : PyStr
  query : Dict PyStr PyStr
  headers : Dict PyStr PyStr
  body : Option Bytes
  user : Option User
  deriving DecidableEq, Repr

/-- `Request.form`, `/repo/src/psion/oauth2/models/http.py:73-82`. Without body, `parse_qsl(None)` is the empty
list. -/
def Request.form (r : Request) : Dict PyStr PyStr :=
  match r.body with
  | none => []
  | some b => urldecode (toStringB b)

/-- `Request.data` after the constructor, `/repo/src/psion/oauth2/models/http.py:69-71`. -/
def Request.data (r : Request) : Dict PyStr PyStr := Dict.update r.query r.form

/-- `Request.__init__`, `/repo/src/psion/oauth2/models/http.py:47-71`. The attributes `path` and `fragment` are never read. -/
def Request.init (method url : PyStr) (headers : Dict PyStr PyStr) (body : Option Bytes)
    (user : Option User) : Res Request :=
  if asciiLower method = py! "get" ∨ asciiLower method = py! "post" then
    if urlRefused url then .error .valueErr
    else .ok { method, query := urldecode (urlQuery url),
               headers := Dict.ofPairs (headers.map (fun kv => (asciiLower kv.1, kv.2))), body, user }
  else .error .runtimeErr

/-- `Response`, `/repo/src/psion/oauth2/models/http.py:85-146`. -/
structure Response where
  status : Nat
  headers : NDict PyStr PyStr
  body : Bytes
  deriving DecidableEq, Repr

/-- Texts as the values of a dictionary that may hold `None`. -/
def someVals (d : Dict PyStr PyStr) : NDict PyStr PyStr := d.map (fun kv => (kv.1, some kv.2))

/-- `Response.parse_headers`, `/repo/src/psion/oauth2/models/http.py:115-131`. -/
def parseHeaders (mediaType : Option PyStr) (headers : Dict PyStr PyStr) : NDict PyStr PyStr :=
  FullDict.init [(py! "Content-Type", mediaType)] (someVals headers)

/-- `JSONResponse`, `/repo/src/psion/oauth2/models/http.py:149-172`. -/
def jsonResponse (fe : FloatEnv) (status : Nat) (headers : Dict PyStr PyStr) (body : Val) : Res Response :=
  match utf8Encode (jsonDumps fe body) with
  | .error e => .error e
  | .ok b => .ok ⟨status, parseHeaders (some (py! "application/json")) headers, b⟩

/-- `RedirectResponse`, `/repo/src/psion/oauth2/models/http.py:175-194`. -/
def redirectResponse (url : PyStr) (headers : Dict PyStr PyStr) : Res Response :=
  match quotePlus locSafe url with
  | .error e => .error e
  | .ok loc => .ok ⟨303, FullDict.setItem (parseHeaders none headers) (py! "Location") (some loc), []⟩

end Psion
