import Verif.Jose.Jws

/-!
# Json Web Tokens

`/repo/src/psion/jose/jwt.py`.
-/

namespace Psion

/-- `int(datetime.utcnow().timestamp())`, `/repo/src/psion/jose/jwt.py:43`: `utcnow` gives a naive date, which `timestamp`
takes for local time. With `epoch` seconds since 1970 and a local time zone `offset` seconds east of
UTC the result is `epoch - offset` (changes of the offset by daylight saving are not modelled). -/
def libNow (epoch offset : Int) : Int := epoch - offset

/-- `_validate_default_claims`: the `aud` part, `/repo/src/psion/jose/jwt.py:45-52`. -/
def checkAud (v : Val) : Res Unit :=
  if v.truthy then
    match v with
    | .str _ => .ok ()
    | .list l => if l.any (fun i => !i.isStr) then .error (.jose .invalidJWTClaim) else .ok ()
    | _ => .error (.jose .invalidJWTClaim)
  else .ok ()

/-- `exp`, `/repo/src/psion/jose/jwt.py:54-60`. -/
def checkExp (now : Int) (v : Val) : Res Unit :=
  if v.truthy then
    match v with
    | .int i => if i ≤ now then .error (.jose .expiredToken) else .ok ()
    | _ => .error (.jose .invalidJWTClaim)
  else .ok ()

/-- `iat`, `/repo/src/psion/jose/jwt.py:62-68`. -/
def checkIat (now : Int) (v : Val) : Res Unit :=
  if v.truthy then
    match v with
    | .int i => if now < i then .error (.jose .invalidJWTClaim) else .ok ()
    | _ => .error (.jose .invalidJWTClaim)
  else .ok ()

/-- `nbf`, `/repo/src/psion/jose/jwt.py:78-84`. -/
def checkNbf (now : Int) (v : Val) : Res Unit :=
  if v.truthy then
    match v with
    | .int i => if now < i then .error (.jose .notYetValidToken) else .ok ()
    | _ => .error (.jose .invalidJWTClaim)
  else .ok ()

/-- `iss`, `jti`, `sub`, `/repo/src/psion/jose/jwt.py:70-76,86-88`. -/
def checkText (v : Val) : Res Unit :=
  match v with
  | .none => .ok ()
  | .str _ => .ok ()
  | _ => .error (.jose .invalidJWTClaim)

/-- `_validate_default_claims`, `/repo/src/psion/jose/jwt.py:41-88`, at the time `now` (whole seconds). -/
def validateDefaultClaims (now : Int) (c : Dict PyStr Val) : Res Unit := do
  checkAud (dget c (py! "aud"))
  checkExp now (dget c (py! "exp"))
  checkIat now (dget c (py! "iat"))
  checkText (dget c (py! "iss"))
  checkText (dget c (py! "jti"))
  checkNbf now (dget c (py! "nbf"))
  checkText (dget c (py! "sub"))

/-- What one iteration of the loop over the options does. -/
inductive OptStep
  | raise
  /-- The loop over the options is left (`break`, `/repo/src/psion/jose/jwt.py:119-122`). -/
  | stop
  | next

/-- Body of the loop of `_validate_claims`, `/repo/src/psion/jose/jwt.py:101-130`. -/
def optionStep (claims : Dict PyStr Val) (claim : PyStr) (option : Val) : OptStep :=
  match option with
  | .dict o =>
    let value := dget claims claim
    if (dget o (py! "essential")).truthy && value.isNone then .raise
    else if (dget o (py! "value")).truthy && !value.pyEq (dget o (py! "value")) then .raise
    else if (dget o (py! "values")).truthy then
      match dget o (py! "values") with
      | .list vs =>
        match value with
        | .list items =>
          if items.any (fun i => i.inList vs) then .stop
          else if vs.any (fun e => value.pyEq e) then .next else .raise
        | _ => if vs.any (fun e => value.pyEq e) then .next else .raise
      | _ => .raise
    else .next
  | _ => .next

/-- `_validate_claims`, `/repo/src/psion/jose/jwt.py:90-130`. -/
def validateClaims (claims : Dict PyStr Val) : Dict PyStr Val → Res Unit
  | [] => .ok ()
  | (c, o) :: opts =>
    match optionStep claims c o with
    | .raise => .error (.jose .invalidJWTClaim)
    | .stop => .ok ()
    | .next => validateClaims claims opts

/-- `JsonWebTokenClaims.__init__`, `/repo/src/psion/jose/jwt.py:28-39`. `options` is `None` or a dictionary (anything
else is ignored). -/
def claimsInit (now : Int) (claims options : Val) : Res (Dict PyStr Val) :=
  match claims with
  | .dict c =>
    if c = [] then .error (.jose .invalidJWTClaim)
    else do
      validateDefaultClaims now c
      match options with
      | .dict o => validateClaims c o
      | _ => pure ()
      return fullDict c
  | _ => .error (.jose .invalidJWTClaim)

/-- `JsonWebToken`, `/repo/src/psion/jose/jwt.py:133-168`. -/
structure Jwt where
  header : JwsHeader
  claims : Dict PyStr Val
  jws : Jws

/-- `JsonWebToken.__init__`, `/repo/src/psion/jose/jwt.py:165-168`. -/
def Jwt.init (cr : Crypto) (now : Int) (claims header : Val) : Res Jwt := do
  let h ← JwsHeader.init header
  let c ← claimsInit now claims .none
  let payload ← utf8Encode (jsonDumps cr.fe (.dict c))
  return ⟨h, c, ⟨h, payload⟩⟩

/-- `JsonWebToken.encode`, `/repo/src/psion/jose/jwt.py:173-185`. -/
def Jwt.encode (cr : Crypto) (t : Jwt) (key : Jwk) (seed : Nat) : Res PyStr :=
  match t.jws.serialize cr key seed with
  | .error e => .error e
  | .ok b => .ok (toStringB b)

/-- `JsonWebToken.decode`, `/repo/src/psion/jose/jwt.py:187-234`, on `bytes`. The clock is read twice: `now1` when the
claims are checked against the options, `now2` when the resulting object is built. -/
def Jwt.decode (cr : Crypto) (now1 now2 : Int) (token : Bytes) (key : Jwk)
    (algorithm : Option PyStr) (validate : Bool) (options : Val) : Res Jwt := do
  let jws ← Jws.deserialize cr token key algorithm validate
  let v ← jsonLoads cr.fe jws.payload
  let c ← claimsInit now1 v (if validate then options else .none)
  Jwt.init cr now2 (.dict c) (.dict jws.header.data)

/-- `JsonWebToken.decode` on `str`: the text is encoded first. -/
def Jwt.decodeStr (cr : Crypto) (now1 now2 : Int) (token : PyStr) (key : Jwk)
    (algorithm : Option PyStr) (validate : Bool) (options : Val) : Res Jwt := do
  let b ← utf8Encode token
  Jwt.decode cr now1 now2 b key algorithm validate options

end Psion
