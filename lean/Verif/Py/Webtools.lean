import Verif.Py.Url
import Verif.Py.Json

/-!
# Remaining functions of `/repo/src/psion/webtools.py`

Authorization headers, random tokens, half hashes.
-/

namespace Psion

/-- `str.isspace` of one character. -/
def isPySpace (c : Nat) : Bool :=
  (9 ≤ c && c ≤ 13) || (28 ≤ c && c ≤ 32) || c == 0x85 || c == 0xA0 || c == 0x1680 ||
    (0x2000 ≤ c && c ≤ 0x200A) || c == 0x2028 || c == 0x2029 || c == 0x202F || c == 0x205F ||
    c == 0x3000

/-- `s.split(None, 1)`: at most two parts; the second part keeps its trailing white space. -/
def splitNone1 (s : PyStr) : List PyStr :=
  let s := s.dropWhile isPySpace
  if s = [] then []
  else
    let w := s.takeWhile (fun c => !isPySpace c)
    let r := (s.dropWhile (fun c => !isPySpace c)).dropWhile isPySpace
    if r = [] then [w] else [w, r]

/-- ASCII part of `str.lower()`. Non-ASCII characters are left alone: none of them lowers to a
letter of `basic`, `bearer`, `get`, `post` or of a header name used by the library. -/
def asciiLower (s : PyStr) : PyStr := s.map (fun c => if 65 ≤ c ∧ c ≤ 90 then c + 32 else c)

/-- `headers.get("authorization") or headers.get("Authorization")` (header values are texts). -/
def authHeader (headers : Dict PyStr PyStr) : Option PyStr :=
  match Dict.get headers (py! "authorization") with
  | some (c :: s) => some (c :: s)
  | _ => Dict.get headers (py! "Authorization")

/-- `base64.b64decode(token)` for a `str`: a non-ASCII text raises a plain `ValueError`. -/
def b64decodeStr (s : PyStr) : Res Bytes :=
  if s.all (· < 128) then a2b (s.map byte) else .error .valueErr

/-- `get_basic_authorization`, `/repo/src/psion/webtools.py:239-273`; `none` is `(None, None)`. -/
def getBasicAuthorization (headers : Dict PyStr PyStr) : Res (Option (PyStr × PyStr)) :=
  match authHeader headers with
  | none => .ok none
  | some auth =>
    if auth = [] ∨ 32 ∉ auth then .ok none
    else
      match splitNone1 auth with
      | [method, token] =>
        if asciiLower method ≠ py! "basic" then .ok none
        else
          match b64decodeStr token with
          | .error .binascii => .ok none
          | .error .typeErr => .ok none
          | .error e => .error e
          | .ok raw => .ok (splitOnce 58 (toStringB raw))
      | _ => .error .valueErr

/-- `get_bearer_authorization`, `/repo/src/psion/webtools.py:276-297`. -/
def getBearerAuthorization (headers : Dict PyStr PyStr) : Res (Option PyStr) :=
  match authHeader headers with
  | none => .ok none
  | some auth =>
    if auth = [] ∨ 32 ∉ auth then .ok none
    else
      match splitNone1 auth with
      | [method, token] =>
        if asciiLower method ≠ py! "bearer" then .ok none else .ok (some token)
      | _ => .error .valueErr

/-- `f"{string.ascii_letters}{string.digits}-_"[i]`. -/
def tokenChar (i : Fin 64) : Nat :=
  if i.val < 26 then 97 + i.val
  else if i.val < 52 then 65 + (i.val - 26)
  else if i.val < 62 then 48 + (i.val - 52)
  else if i.val = 62 then 45 else 95

/-- `secret_token(size)`, `/repo/src/psion/webtools.py:195-207`. The argument is the sequence of the
`size` random choices; `reduce` of an empty sequence raises `TypeError`. -/
def secretToken (choices : List (Fin 64)) : Res PyStr :=
  if choices = [] then .error .typeErr else .ok (choices.map tokenChar)

/-- `getattr(hashlib, "sha" + name)`, external. -/
structure HashEnv where
  sha : PyStr → Option (Bytes → Bytes)

/-- `create_half_hash`, `/repo/src/psion/webtools.py:300-321`. -/
def createHalfHash (he : HashEnv) (token alg : PyStr) : Res PyStr :=
  match he.sha (alg.drop 2) with
  | none => .error .attrErr
  | some h =>
    match utf8Encode token with
    | .error e => .error e
    | .ok b => .ok (toStringB (b64urlEncode ((h b).take ((h b).length / 2))))

end Psion
