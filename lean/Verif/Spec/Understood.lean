import Verif.Jose.Jwt

/-!
# What is not understood

Members that a reader does not understand are to be ignored: in a header (RFC 7515, section 4, unless `crit` names
them), in a key and in a key set (RFC 7517, sections 4 and 5), in a claim set (RFC 7519, section 4).
-/

namespace Psion.Spec

/-- The two dictionaries hold the same under each of the names. -/
def SameUnder (names : List PyStr) (d d' : Dict PyStr Val) : Prop := ∀ k ∈ names, Dict.get d k = Dict.get d' k

/-- The registered claims, RFC 7519, section 4.1. -/
def registeredClaims : List PyStr :=
  [py! "iss", py! "sub", py! "aud", py! "exp", py! "nbf", py! "iat", py! "jti"]

/-- The header members that are looked at. -/
def headerNames : List PyStr := [py! "alg", py! "crit", py! "cty", py! "kid", py! "typ"]

/-- The members a header declares critical. -/
def declaredCritical (h : Dict PyStr Val) : List PyStr :=
  match Dict.get h (py! "crit") with
  | some (.list l) => l.filterMap (fun v => match v with
    | .str s => some s
    | _ => none)
  | _ => []

/-- The members in which the numbers or the secret of a key of the type are written, RFC 7518, section 6. -/
def numberNames (kty : PyStr) : List PyStr :=
  if kty = py! "EC" then [py! "crv", py! "x", py! "y", py! "d"]
  else if kty = py! "RSA" then [py! "n", py! "e", py! "d", py! "p", py! "q", py! "dp", py! "dq", py! "qi"]
  else [py! "k"]

/-- The members that say what a key may be used for. -/
def usageNames : List PyStr := [py! "kty", py! "crv", py! "alg", py! "kid", py! "use", py! "key_ops"]

/-- The two attempts are refused with the same error, or neither is refused. -/
def SameRefusal {α : Type} (r r' : Res α) : Prop := ∀ e, r = .error e ↔ r' = .error e

end Psion.Spec
