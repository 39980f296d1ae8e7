import Verif.Py.Webtools

/-!
# Errors of the OAuth 2.1 half

`/repo/src/psion/oauth2/exceptions.py`.
-/

namespace Psion

/-- The exception classes, `/repo/src/psion/oauth2/exceptions.py:63-118`. `other` is any further subclass of
`OAuth2Error` that an application defines. -/
inductive ErrKind
  | fatal | invalidRequest | invalidClient | invalidGrant | unauthorizedClient | accessDenied
  | unsupportedResponseType | unsupportedGrantType | unsupportedTokenType | invalidScope | serverError
  | temporarilyUnavailable | other
  deriving DecidableEq, Repr

/-- Class attribute `error`. `FatalError` gets its value from the constructor. -/
def ErrKind.code : ErrKind → PyStr
  | .fatal => []
  | .invalidRequest => py! "invalid_request"
  | .invalidClient => py! "invalid_client"
  | .invalidGrant => py! "invalid_grant"
  | .unauthorizedClient => py! "unauthorized_client"
  | .accessDenied => py! "access_denied"
  | .unsupportedResponseType => py! "unsupported_response_type"
  | .unsupportedGrantType => py! "unsupported_grant_type"
  | .unsupportedTokenType => py! "unsupported_token_type"
  | .invalidScope => py! "invalid_scope"
  | .serverError => py! "server_error"
  | .temporarilyUnavailable => py! "temporarily_unavailable"
  | .other => []

/-- An instance of `OAuth2Error`, `/repo/src/psion/oauth2/exceptions.py:35-45`. `error` may be `None` only
for subclasses outside of the library. -/
structure OErr where
  kind : ErrKind
  error : Option PyStr
  description : Option PyStr := none
  uri : Option PyStr := none
  state : Option PyStr := none
  headers : Dict PyStr PyStr := []
  deriving DecidableEq, Repr

/-- `Class(description=..., state=..., headers=...)` for a class of the library. -/
def OErr.mk' (kind : ErrKind) (description : Option PyStr := none) (state : Option PyStr := none)
    (headers : Dict PyStr PyStr := []) : OErr :=
  { kind, error := some kind.code, description, state, headers }

/-- `FatalError(error=..., description=...)`, `/repo/src/psion/oauth2/exceptions.py:72-74`. -/
def OErr.fatal (error description : PyStr) : OErr :=
  { kind := .fatal, error := some error, description := some description }

/-- `OAuth2Error.dump` before the removal of the `None` values,
`/repo/src/psion/oauth2/exceptions.py:47-60`. -/
def OErr.params (e : OErr) : NDict PyStr PyStr :=
  [(py! "error", e.error), (py! "error_description", e.description), (py! "error_uri", e.uri),
    (py! "state", e.state)]

/-- `OAuth2Error.dump`, `/repo/src/psion/oauth2/exceptions.py:47-60`. -/
def OErr.dump (e : OErr) : NDict PyStr PyStr := FullDict.init [] e.params

/-- A dictionary of texts as a JSON-like dictionary. -/
def ndictVal (d : NDict PyStr PyStr) : Dict PyStr Val :=
  d.map (fun kv => (kv.1, match kv.2 with | some s => .str s | none => .none))

/-- Everything that can be raised in the OAuth half: an `OAuth2Error` or anything else. -/
inductive OExc
  | py (e : Exc)
  | oauth (e : OErr)
  deriving DecidableEq, Repr

/-- Result of a call that may raise. -/
abbrev ORes (α : Type) := Except OExc α

/-- A call into the part of the library that does not raise `OAuth2Error`. -/
def liftRes {α : Type} : Res α → ORes α
  | .ok a => .ok a
  | .error e => .error (.py e)

end Psion
