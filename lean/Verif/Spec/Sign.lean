import Verif.Spec.Jose

/-!
# Specification of signing and of the use of keys

Written from RFC 7515, 7517 and 7518.
-/

namespace Psion.Spec

open Psion

/-- `Signs cr seed alg key msg sig`: `sig` is the signature of `msg` that `key` makes with the algorithm called `alg` and the
random number `seed` (the table of RFC 7518, section 3.1; the form of a signature is that of `cryptography`, see `RfcSig`). There is no row for `none` and none for public keys. -/
inductive Signs (cr : Crypto) (seed : Nat) : PyStr → Material → Bytes → Bytes → Prop
  | hs256 s msg : Signs cr seed (py! "HS256") (.oct s) msg (cr.hmac .sha256 s msg)
  | hs384 s msg : Signs cr seed (py! "HS384") (.oct s) msg (cr.hmac .sha384 s msg)
  | hs512 s msg : Signs cr seed (py! "HS512") (.oct s) msg (cr.hmac .sha512 s msg)
  | rs256 n e r msg sig (h : cr.rsaSign n e r .pkcs1v15 .sha256 msg seed = .ok sig) :
      Signs cr seed (py! "RS256") (.rsa n e (some r)) msg sig
  | ps256 n e r msg sig (h : cr.rsaSign n e r .pss .sha256 msg seed = .ok sig) :
      Signs cr seed (py! "PS256") (.rsa n e (some r)) msg sig
  | rs384 n e r msg sig (h : cr.rsaSign n e r .pkcs1v15 .sha384 msg seed = .ok sig) :
      Signs cr seed (py! "RS384") (.rsa n e (some r)) msg sig
  | ps384 n e r msg sig (h : cr.rsaSign n e r .pss .sha384 msg seed = .ok sig) :
      Signs cr seed (py! "PS384") (.rsa n e (some r)) msg sig
  | rs512 n e r msg sig (h : cr.rsaSign n e r .pkcs1v15 .sha512 msg seed = .ok sig) :
      Signs cr seed (py! "RS512") (.rsa n e (some r)) msg sig
  | ps512 n e r msg sig (h : cr.rsaSign n e r .pss .sha512 msg seed = .ok sig) :
      Signs cr seed (py! "PS512") (.rsa n e (some r)) msg sig
  | es256 x y d msg : Signs cr seed (py! "ES256") (.ec .p256 x y (some d)) msg (cr.ecSign .p256 x y d .sha256 msg seed)
  | es384 x y d msg : Signs cr seed (py! "ES384") (.ec .p384 x y (some d)) msg (cr.ecSign .p384 x y d .sha384 msg seed)
  | es512 x y d msg : Signs cr seed (py! "ES512") (.ec .p521 x y (some d)) msg (cr.ecSign .p521 x y d .sha512 msg seed)

/-- The members of the key permit its use for a signature under the header `h` (RFC 7517, section 4): `alg`, `use` and
`key_ops`, unless they are missing or empty, name the algorithm of the header, signatures, and only signing and verifying (a
dictionary counts as the list of its names); the header names no key or this one. -/
structure Suits (key h : Dict PyStr Val) : Prop where
  alg : (dget key (py! "alg")).truthy = false ∨ dget key (py! "alg") = dget h (py! "alg")
  kid : Dict.get h (py! "kid") = none ∨ dget key (py! "kid") = dget h (py! "kid")
  use : (dget key (py! "use")).truthy = false ∨ dget key (py! "use") = .str (py! "sig")
  ops : (dget key (py! "key_ops")).truthy = false ∨
    (∃ l, dget key (py! "key_ops") = .list l ∧ ∀ o ∈ l, o = .str (py! "sign") ∨ o = .str (py! "verify")) ∨
    (∃ d, dget key (py! "key_ops") = .dict d ∧ ∀ kv ∈ d, kv.1 = py! "sign" ∨ kv.1 = py! "verify")

/-- A token after RFC 7515: three parts joined by dots, the base64url texts of a header that is valid and names the algorithm `a`, of the
payload, and of a signature of the first two parts, which is valid in the sense of `Valid`. The members of the key permit its use. -/
def SignedToken (Valid : PyStr → Material → Bytes → Bytes → Prop) (fe : FloatEnv) (key : Jwk) (a : PyStr) (tok : Bytes)
    (header : Dict PyStr Val) (payload : Bytes) : Prop :=
  ∃ hb pb sb raw hd sig, tok = hb ++ by! "." ++ pb ++ by! "." ++ sb ∧ 46 ∉ hb ∧ 46 ∉ pb ∧ 46 ∉ sb ∧
    b64urlDecode hb = .ok raw ∧ jsonLoads fe raw = .ok (.dict hd) ∧ HeaderOk hd ∧ header = fullDict hd ∧
    Dict.get hd (py! "alg") = some (.str a) ∧ Suits key.data header ∧ b64urlDecode pb = .ok payload ∧
    b64urlDecode sb = .ok sig ∧ Valid a key.mat (hb ++ by! "." ++ pb) sig

end Psion.Spec
