import Verif.Spec.Sign

/-!
# Specification of the errors of the JOSE part

Written from the documentation of the library (`:raises …:`) and the names of the exceptions.
-/

namespace Psion.Spec

open Psion

/-- A list or a dictionary: Python cannot look it up in a dictionary. -/
def Unhashable (v : Val) : Prop := (∃ l, v = .list l) ∨ ∃ d, v = .dict d

/-- Which error a header is refused with. -/
inductive HeaderRefused : Val → Exc → Prop
  /-- It is no object, or an empty one. -/
  | noObject v (h : ∀ d, v = .dict d → d = []) : HeaderRefused v (.jose .invalidJWSHeader)
  | noAlg d (h : Dict.get d (py! "alg") = none) : HeaderRefused (.dict d) (.jose .invalidJWSHeader)
  /-- The algorithm is not one of the list. -/
  | unsupported d a (h : Dict.get d (py! "alg") = some a) (hu : ¬ Unhashable a) (hs : ∀ s ∈ supportedAlgs, a ≠ .str s) :
      HeaderRefused (.dict d) (.jose .unsupportedAlgorithm)
  /-- The algorithm is a list or a dictionary: an error of Python. -/
  | unhashable d a (h : Dict.get d (py! "alg") = some a) (hu : Unhashable a) : HeaderRefused (.dict d) .typeErr
  /-- The algorithm is supported, but another member is not as it should be. -/
  | member d s (h : Dict.get d (py! "alg") = some (.str s)) (hs : s ∈ supportedAlgs) (hn : ¬ HeaderOk d) :
      HeaderRefused (.dict d) (.jose .invalidJWSHeader)

/-- The audience is missing or empty, a text, or a list of texts. -/
def AudOk (c : Dict PyStr Val) : Prop :=
  (dget c (py! "aud")).truthy = false ∨ (∃ s, dget c (py! "aud") = .str s) ∨
    ∃ l, dget c (py! "aud") = .list l ∧ ∀ i ∈ l, ∃ s, i = .str s

/-- Missing or a text. -/
def TextOk (c : Dict PyStr Val) (k : PyStr) : Prop := dget c k = .none ∨ ∃ s, dget c k = .str s

/-- The claims say when they end, and that is now or was before. -/
def Expired (now : Int) (c : Dict PyStr Val) : Prop := ∃ i, dget c (py! "exp") = .int i ∧ i ≠ 0 ∧ i ≤ now

/-- The claims say when they begin, and that is later. -/
def Early (now : Int) (c : Dict PyStr Val) : Prop := ∃ i, dget c (py! "nbf") = .int i ∧ i ≠ 0 ∧ now < i

/-- A time that is missing, `null`, `false`, empty or zero, or a number that satisfies `p`. -/
def TimeOk (c : Dict PyStr Val) (k : PyStr) (p : Int → Prop) : Prop :=
  (dget c k).truthy = false ∨ ∃ i, dget c k = .int i ∧ p i

/-- The key operations are missing or a list (RFC 7517, section 4.3). -/
def OpsList (key : Dict PyStr Val) : Prop :=
  (dget key (py! "key_ops")).truthy = false ∨ ∃ l, dget key (py! "key_ops") = .list l

/-- The key may be used for a signature under the header `h` with the algorithm called `a`. -/
def Usable (key : Jwk) (h : Dict PyStr Val) (a : PyStr) : Prop :=
  Suits key.data h ∧ (a = py! "none" ∨ AlgFits a key.mat)

/-- The first part of a token is the base64url text of a JSON object that is a valid header, with the members `h` and the algorithm
called `a`. -/
def Heads (cr : Crypto) (hb : Bytes) (h : Dict PyStr Val) (a : PyStr) : Prop :=
  ∃ raw hd, b64urlDecode hb = .ok raw ∧ jsonLoads cr.fe raw = .ok (.dict hd) ∧ HeaderOk hd ∧ h = fullDict hd ∧
    Dict.get hd (py! "alg") = some (.str a)

/-- The algorithm is the expected one, or none is expected. -/
def ExpectedAlg (alg : Option PyStr) (a : PyStr) : Prop := alg = none ∨ alg = some [] ∨ alg = some a

/-- The check of RSA signatures of the package `cryptography` answers yes or no and raises nothing else. -/
def Decides (cr : Crypto) : Prop := ∀ n e pad hash msg sig ex, cr.rsaVerify n e pad hash msg sig ≠ .error ex

/-- The operations of the package `cryptography` that complete an RSA key raise no errors of this library. -/
structure Foreign (cr : Crypto) : Prop where
  recover : ∀ n e d x, cr.rsaRecover n e d ≠ .error (.jose x)
  dmp1 : ∀ d p x, cr.rsaDmp1 d p ≠ .error (.jose x)
  dmq1 : ∀ d q x, cr.rsaDmq1 d q ≠ .error (.jose x)
  iqmp : ∀ p q x, cr.rsaIqmp p q ≠ .error (.jose x)

/-- The types of keys of RFC 7518, section 6.1. -/
def keyTypes : List PyStr := [py! "EC", py! "RSA", py! "oct"]

/-- The curves of RFC 7518, section 6.2.1.1. -/
def curves : List PyStr := [py! "P-256", py! "P-384", py! "P-521"]

/-- `[header, payload, signature]` of a token. -/
def Three (tok hb pb sb : Bytes) : Prop := tok = hb ++ by! "." ++ pb ++ by! "." ++ sb ∧ 46 ∉ hb ∧ 46 ∉ pb ∧ 46 ∉ sb

end Psion.Spec
