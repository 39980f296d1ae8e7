import Verif.Py.Webtools
import Verif.Py.IntB64

/-!
# Cryptographic primitives used by the JOSE half

The `cryptography` package is outside of the model. Its operations are fields of `Crypto`, functions without any
assumed property; the theorems that need a property of them (a signature verifies, signatures
cannot be forged, ...) take it as an explicit hypothesis.
-/

namespace Psion

/-- `ALGORITHMS`, `/repo/src/psion/jose/jwa/jwk.py:28-35`. -/
inductive Hash
  | sha256 | sha384 | sha512
  deriving DecidableEq, Repr

/-- `ECKey.CURVES`, `/repo/src/psion/jose/jwa/jwk.py:217-227`. -/
inductive Curve
  | p256 | p384 | p521
  deriving DecidableEq, Repr

/-- Name of a curve in a JWK (`CURVES_NAMES`). -/
def Curve.name : Curve → PyStr
  | .p256 => py! "P-256"
  | .p384 => py! "P-384"
  | .p521 => py! "P-521"

/-- `CURVES.get(name)`. -/
def Curve.ofName (s : PyStr) : Option Curve :=
  if s = py! "P-256" then some .p256
  else if s = py! "P-384" then some .p384
  else if s = py! "P-521" then some .p521
  else none

/-- `RSAPadding`, `/repo/src/psion/jose/jwa/jwk.py:39`. -/
inductive Padding
  | pkcs1v15 | pss
  deriving DecidableEq, Repr

/-- `rsa.RSAPrivateNumbers` without the public part. -/
structure RsaPriv where
  d : Nat
  p : Nat
  q : Nat
  dp : Nat
  dq : Nat
  qi : Nat
  deriving DecidableEq, Repr

/-- Result of loading a PEM file. -/
inductive PemKey
  | ecPriv (crv : Option Curve) (x y d : Nat)
  | ecPub (crv : Option Curve) (x y : Nat)
  | rsaPriv (n e : Nat) (priv : RsaPriv)
  | rsaPub (n e : Nat)
  /-- A key of another kind (DSA, Ed25519, ...). -/
  | other
  deriving DecidableEq, Repr

/-- External operations. Signing is randomised (ECDSA, PSS): it takes the random `seed`. -/
structure Crypto where
  fe : FloatEnv
  hmac : Hash → Bytes → Bytes → Bytes
  /-- `EllipticCurvePublicNumbers(x, y, curve).public_key()` does not raise `ValueError`. -/
  ecPubOk : Curve → Nat → Nat → Bool
  /-- `EllipticCurvePrivateNumbers(d, public).private_key()` does not raise `ValueError`. -/
  ecPrivOk : Curve → Nat → Nat → Nat → Bool
  ecSign : Curve → Nat → Nat → Nat → Hash → Bytes → Nat → Bytes
  ecVerify : Curve → Nat → Nat → Hash → Bytes → Bytes → Bool
  /-- `RSAPublicNumbers(e, n).public_key()` does not raise `ValueError`. -/
  rsaPubOk : Nat → Nat → Bool
  /-- `RSAPrivateNumbers(...).private_key()` does not raise `ValueError`. -/
  rsaPrivOk : Nat → Nat → RsaPriv → Bool
  rsaRecover : Nat → Nat → Nat → Res (Nat × Nat)
  rsaDmp1 : Nat → Nat → Res Nat
  rsaDmq1 : Nat → Nat → Res Nat
  rsaIqmp : Nat → Nat → Res Nat
  /-- Signing fails when the key is too small for the digest. -/
  rsaSign : Nat → Nat → RsaPriv → Padding → Hash → Bytes → Nat → Res Bytes
  /-- `ok false` is `cryptography`'s `InvalidSignature`. -/
  rsaVerify : Nat → Nat → Padding → Hash → Bytes → Bytes → Res Bool
  /-- Contents of a file, or the exception raised by `open` (`none`: `FileNotFoundError` or
  `IsADirectoryError`). -/
  readFile : Bytes → Res (Option Bytes)
  loadPemPrivate : Bytes → Option Bytes → Res PemKey
  loadPemPublic : Bytes → Res PemKey

end Psion
