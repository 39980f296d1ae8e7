import Verif.Spec.Encodings
import Verif.Spec.Rfc7518

/-!
# Keys in files: DER (X.690), PEM (RFC 7468), and the types of RFC 8017, RFC 5915, RFC 5480 and RFC 5208
-/

namespace Psion.Spec

open Psion

/-! ## DER -/

/-- X.690, 8.1.3 and 10.1: a length below 128 is one octet; else an octet tells how many octets follow, as few as possible. -/
def DerLength (n : Nat) (text : Bytes) : Prop :=
  (n < 128 ∧ text = [byte n]) ∨
  (128 ≤ n ∧ ∃ o, octetsValue o = n ∧ o.head? ≠ some 0 ∧ o.length < 127 ∧ text = byte (128 + o.length) :: o)

/-- X.690, 8.1: tag, length, content. -/
def Der (tag : Byte) (content text : Bytes) : Prop := ∃ l, DerLength content.length l ∧ text = tag :: (l ++ content)

/-- X.690, 8.3: a natural number. The first bit is the sign, and the first nine bits are not all zero. -/
def DerInt (n : Nat) (text : Bytes) : Prop :=
  ∃ o, octetsValue o = n ∧ (octetBits o).head? = some false ∧ (octetBits o).take 9 ≠ List.replicate 9 false ∧ Der 2 o text

/-- Several natural numbers, one after the other. -/
inductive DerInts : List Nat → Bytes → Prop
  | nil : DerInts [] []
  | cons {n l a b} (ha : DerInt n a) (hb : DerInts l b) : DerInts (n :: l) (a ++ b)

/-- The number of digits to the base 128. -/
def septets (n : Nat) : Nat := max 1 ((bits n + 6) / 7)

/-- X.690, 8.19.2: the digits of a number to the base 128, with a mark on all but the last. -/
def base128 (n : Nat) : Bytes :=
  (List.range (septets n)).map fun i => byte ((if i + 1 < septets n then 128 else 0) + n / 128 ^ (septets n - 1 - i) % 128)

/-- X.690, 8.19: the first two numbers of an object identifier share an octet. -/
def oidOctets (a b : Nat) (rest : List Nat) : Bytes := byte (40 * a + b) :: rest.flatMap base128

/-! ## PEM -/

/-- RFC 7468, section 3 (`stricttextualmsg`): the label, lines of 64 characters, the last of which may be shorter, the label again. -/
def PemText (label body text : Bytes) : Prop :=
  ∃ lines : List Bytes, Base64 body lines.flatten ∧ (∀ line ∈ lines.dropLast, line.length = 64) ∧
    (∀ line ∈ lines.getLast?, 1 ≤ line.length ∧ line.length ≤ 64) ∧
    text = by! "-----BEGIN " ++ label ++ by! "-----\n" ++ lines.flatMap (· ++ by! "\n") ++ by! "-----END " ++ label ++ by! "-----\n"

/-! ## Keys -/

/-- RFC 8017, appendix A.1.2: `RSAPrivateKey` with two primes. -/
def RsaPrivateKey (n e : Nat) (r : RsaPriv) (text : Bytes) : Prop :=
  ∃ c, DerInts [0, n, e, r.d, r.p, r.q, r.dp, r.dq, r.qi] c ∧ Der 48 c text

/-- RFC 8017, appendix A.1.1: `RSAPublicKey`. -/
def RsaPublicKey (n e : Nat) (text : Bytes) : Prop := ∃ c, DerInts [n, e] c ∧ Der 48 c text

/-- RFC 5480, section 2.1.1.1. -/
def curveArcs : Curve → Bytes
  | .p256 => oidOctets 1 2 [840, 10045, 3, 1, 7]
  | .p384 => oidOctets 1 3 [132, 0, 34]
  | .p521 => oidOctets 1 3 [132, 0, 35]

/-- SEC 1, section 2.3.3, without compression. -/
def curvePoint (c : Curve) (x y : Nat) : Bytes := [4] ++ octets (coordinateSize c) x ++ octets (coordinateSize c) y

/-- RFC 5915, section 3: `ECPrivateKey` with the public key, with or without the name of the curve. -/
def EcPrivateKey (named : Bool) (c : Curve) (x y d : Nat) (text : Bytes) : Prop :=
  ∃ version key oid params point pub, DerInt 1 version ∧ Der 4 (octets (coordinateSize c) d) key ∧
    Der 6 (curveArcs c) oid ∧ Der 0xa0 oid params ∧ Der 3 (0 :: curvePoint c x y) point ∧ Der 0xa1 point pub ∧
    Der 48 (version ++ key ++ (if named then params else []) ++ pub) text

/-- RFC 8017, appendix A.1 and RFC 5480, section 2.1.1: the `AlgorithmIdentifier` of a key. -/
def KeyAlgorithm (m : Material) (text : Bytes) : Prop :=
  match m with
  | .oct _ => False
  | .rsa _ _ _ => ∃ oid null, Der 6 (oidOctets 1 2 [840, 113549, 1, 1, 1]) oid ∧ Der 5 [] null ∧ Der 48 (oid ++ null) text
  | .ec c _ _ _ => ∃ oid curve, Der 6 (oidOctets 1 2 [840, 10045, 2, 1]) oid ∧ Der 6 (curveArcs c) curve ∧ Der 48 (oid ++ curve) text

/-- RFC 5280, section 4.1: `SubjectPublicKeyInfo`. -/
def PublicKeyInfo (m : Material) (text : Bytes) : Prop :=
  ∃ alg key str, KeyAlgorithm m alg ∧
    (match m with
    | .oct _ => False
    | .rsa n e _ => RsaPublicKey n e key
    | .ec c x y _ => key = curvePoint c x y) ∧ Der 3 (0 :: key) str ∧ Der 48 (alg ++ str) text

/-- RFC 5208, section 5: `PrivateKeyInfo`. -/
def PrivateKeyInfo (m : Material) (text : Bytes) : Prop :=
  ∃ version alg key str, DerInt 0 version ∧ KeyAlgorithm m alg ∧
    (match m with
    | .rsa n e (some r) => RsaPrivateKey n e r key
    | .ec c x y (some d) => EcPrivateKey false c x y d key
    | _ => False) ∧ Der 4 key str ∧ Der 48 (version ++ alg ++ str) text

/-- The text of a public key (RFC 7468, section 13). -/
def PublicText (m : Material) (text : Bytes) : Prop := ∃ body, PublicKeyInfo m body ∧ PemText (by! "PUBLIC KEY") body text

/-- The text of a private key in the form of OpenSSL, one for each type. -/
def TraditionalText (m : Material) (text : Bytes) : Prop :=
  match m with
  | .rsa n e (some r) => ∃ body, RsaPrivateKey n e r body ∧ PemText (by! "RSA PRIVATE KEY") body text
  | .ec c x y (some d) => ∃ body, EcPrivateKey true c x y d body ∧ PemText (by! "EC PRIVATE KEY") body text
  | _ => False

/-- The text of a private key (RFC 7468, section 10). -/
def PrivateText (m : Material) (text : Bytes) : Prop := ∃ body, PrivateKeyInfo m body ∧ PemText (by! "PRIVATE KEY") body text

end Psion.Spec
