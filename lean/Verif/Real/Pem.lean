import Verif.Real.Curve
import Verif.Jose.Export

/-!
# Keys in PEM files

The encodings of the files in `/repo/tests/jose/keys`: `RSA PRIVATE KEY` (RFC 8017, appendix A.1.2), `EC PRIVATE KEY` (RFC 5915), and
`PUBLIC KEY` (RFC 5280, section 4.1); and `PRIVATE KEY` (RFC 5208, section 5), without password.
-/

namespace Psion.Real

open Psion

/-! ## Reading -/

/-- Tag, content and rest of a DER value. -/
def readDer : Bytes → Option (Nat × Bytes × Bytes)
  | tag :: len :: s =>
    if len.val < 128 then cut tag.val len.val s
    else if len = 128 ∨ s.length < len.val - 128 then none
    else cut tag.val (number (s.take (len.val - 128))) (s.drop (len.val - 128))
  | _ => none
where
  cut (tag len : Nat) (s : Bytes) : Option (Nat × Bytes × Bytes) :=
    if s.length < len then none else some (tag, s.take len, s.drop len)

/-- The values of a sequence; `fuel` is at least their number. -/
def readAll : Nat → Bytes → Option (List (Nat × Bytes))
  | _, [] => some []
  | 0, _ => none
  | fuel + 1, s =>
    match readDer s with
    | none => none
    | some (t, c, rest) => (readAll fuel rest).map ((t, c) :: ·)

/-- The values of the sequence. -/
def readSeq (s : Bytes) : Option (List (Nat × Bytes)) :=
  match readDer s with
  | some (48, c, []) => readAll 9 c
  | _ => none

/-- The body of a PEM file. -/
def pemBody (s : Bytes) : Res Bytes := a2b (((s.dropWhile (· ≠ 10)).drop 1).takeWhile (· ≠ 45))

def rsaOid : Bytes := [0x2a, 0x86, 0x48, 0x86, 0xf7, 0x0d, 0x01, 0x01, 0x01]

def ecOid : Bytes := [0x2a, 0x86, 0x48, 0xce, 0x3d, 0x02, 0x01]

def curveOid : Curve → Bytes
  | .p256 => [0x2a, 0x86, 0x48, 0xce, 0x3d, 0x03, 0x01, 0x07]
  | .p384 => [0x2b, 0x81, 0x04, 0x00, 0x22]
  | .p521 => [0x2b, 0x81, 0x04, 0x00, 0x23]

def curveOfOid (b : Bytes) : Option Curve := [Curve.p256, .p384, .p521].find? (fun c => curveOid c == b)

/-- Coordinates of a point that is not compressed. -/
def readPoint (b : Bytes) : Option (Nat × Nat) :=
  match b with
  | 4 :: s => some (number (s.take (s.length / 2)), number (s.drop (s.length / 2)))
  | _ => none

/-- `RSAPrivateKey`. -/
def rsaPrivateOf : List (Nat × Bytes) → Option PemKey
  | [(2, _), (2, n), (2, e), (2, d), (2, p), (2, q), (2, dp), (2, dq), (2, qi)] =>
    some (.rsaPriv (number n) (number e) ⟨number d, number p, number q, number dp, number dq, number qi⟩)
  | _ => none

/-- `ECPrivateKey`; the curve is named in it, or around it. -/
def ecPrivateOf (curve : Option Curve) : List (Nat × Bytes) → Option PemKey
  | [(2, _), (4, d), (160, oid), (161, point)] =>
    match readDer oid, readDer point with
    | some (6, oid, _), some (3, 0 :: point, _) => (readPoint point).map fun (x, y) => .ecPriv (curveOfOid oid) x y (number d)
    | _, _ => none
  | [(2, _), (4, d), (161, point)] =>
    match readDer point with
    | some (3, 0 :: point, _) => (readPoint point).map fun (x, y) => .ecPriv curve x y (number d)
    | _ => none
  | _ => none

/-- `RSAPrivateKey`, `ECPrivateKey`, or `PrivateKeyInfo` (RFC 5208). -/
def privateOf : List (Nat × Bytes) → Option PemKey
  | [(2, _), (48, alg), (4, key)] =>
    match readAll 2 alg, readSeq key with
    | some [(6, oid), (_, par)], some vals =>
      if oid = rsaOid then rsaPrivateOf vals else if oid = ecOid then ecPrivateOf (curveOfOid par) vals else some .other
    | _, _ => none
  | vals => rsaPrivateOf vals <|> ecPrivateOf none vals

/-- `load_pem_private_key` without password. -/
def loadPrivate (s : Bytes) : Res PemKey :=
  match pemBody s with
  | .error _ => .error .valueErr
  | .ok body =>
    match (readSeq body).bind privateOf with
    | some key => .ok key
    | none => .error .valueErr

/-- `load_pem_public_key`. -/
def loadPublic (s : Bytes) : Res PemKey :=
  match pemBody s with
  | .error _ => .error .valueErr
  | .ok body =>
    match readSeq body with
    | some [(48, alg), (3, 0 :: key)] =>
      match readAll 2 alg with
      | some [(6, oid), (_, par)] =>
        if oid = rsaOid then
          match readSeq key with
          | some [(2, n), (2, e)] => .ok (.rsaPub (number n) (number e))
          | _ => .error .valueErr
        else if oid = ecOid then
          match readPoint key with
          | some (x, y) => .ok (.ecPub (curveOfOid par) x y)
          | none => .error .valueErr
        else .ok .other
      | _ => .error .valueErr
    | _ => .error .valueErr

/-! ## Writing -/

def derLen (n : Nat) : Bytes :=
  if n < 128 then [byte n] else byte (128 + (Spec.bits n + 7) / 8) :: octetsOf ((Spec.bits n + 7) / 8) n

def der (tag : Byte) (content : Bytes) : Bytes := tag :: (derLen content.length ++ content)

def derInt (n : Nat) : Bytes := der 2 (octetsOf (Spec.bits n / 8 + 1) n)

/-- Lines of 64 characters between the marks. -/
def pem (label body : Bytes) : Bytes :=
  by! "-----BEGIN " ++ label ++ by! "-----\n" ++
    ((chunks 64 (b2a body).length (b2a body)).flatMap (· ++ [10])) ++ by! "-----END " ++ label ++ by! "-----\n"

def pointOf (c : Curve) (x y : Nat) : Bytes :=
  [0, 4] ++ octetsOf ((Spec.bits (domain c).p + 7) / 8) x ++ octetsOf ((Spec.bits (domain c).p + 7) / 8) y

/-- `private_bytes` and `public_bytes`. -/
def writer : PemWriter where
  priv
    | .rsa n e (some r) =>
      pem (by! "RSA PRIVATE KEY") (der 48 (derInt 0 ++ derInt n ++ derInt e ++ derInt r.d ++ derInt r.p ++ derInt r.q ++ derInt r.dp ++
        derInt r.dq ++ derInt r.qi))
    | .ec c x y (some d) =>
      pem (by! "EC PRIVATE KEY") (der 48 (derInt 1 ++ der 4 (octetsOf ((Spec.bits (domain c).p + 7) / 8) d) ++
        der 160 (der 6 (curveOid c)) ++ der 161 (der 3 (pointOf c x y))))
    | _ => []
  pub
    | .rsa n e _ => pem (by! "PUBLIC KEY") (der 48 (der 48 (der 6 rsaOid ++ der 5 []) ++ der 3 (0 :: der 48 (derInt n ++ derInt e))))
    | .ec c x y _ => pem (by! "PUBLIC KEY") (der 48 (der 48 (der 6 ecOid ++ der 6 (curveOid c)) ++ der 3 (pointOf c x y)))
    | .oct _ => []

end Psion.Real
