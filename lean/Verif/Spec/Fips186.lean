import Verif.Real.CurvePrimes
import Verif.Spec.Rfc7518
import Verif.Spec.Fips180
import Mathlib.AlgebraicGeometry.EllipticCurve.Affine.Point

/-!
# Specification of ECDSA after FIPS 186-4

Keys and valid signatures are described with the group of points of Mathlib. `Real.domain` is the table of the numbers of the curves
(FIPS 186-4, appendix D.1.2).
-/

namespace Psion.Spec

open Psion WeierstrassCurve

/-- The curve `y² = x³ - 3x + b` over the field of `p` elements. -/
def ecCurve (c : Curve) : Affine (ZMod (Real.domain c).p) := ⟨0, 0, 0, -3, (Real.domain c).b⟩

/-- The point has these coordinates. -/
def OnAt {c : Curve} (P : (ecCurve c).Point) (x y : Nat) : Prop :=
  x < (Real.domain c).p ∧ y < (Real.domain c).p ∧ ∃ h, P = .some (x : ZMod (Real.domain c).p) (y : ZMod (Real.domain c).p) h

/-- FIPS 186-4, appendix B.4: the private number is between 1 and `n - 1`, and the public point is that multiple of the base point. -/
structure EcKey (c : Curve) (x y d : Nat) : Prop where
  pos : 0 < d
  lt : d < (Real.domain c).n
  point : ∃ G : (ecCurve c).Point, OnAt G (Real.domain c).gx (Real.domain c).gy ∧ OnAt (d • G) x y

/-- The number of `bits n` bits at the left of the digest (FIPS 186-4, section 6.4). -/
def leftmost (c : Curve) (digest : Bytes) : Nat := ofBits ((octetBits digest).take (bits (Real.domain c).n))

/-- FIPS 186-4, section 6.4 (ANSI X9.62): both numbers are between 1 and `n - 1`, and the first one is, modulo `n`, the first coordinate of
`(z / s) G + (r / s) Q`. -/
structure EcdsaValid (c : Curve) (x y : Nat) (h : Hash) (m : Bytes) (r s : Nat) : Prop where
  rPos : 0 < r
  rLt : r < (Real.domain c).n
  sPos : 0 < s
  sLt : s < (Real.domain c).n
  point : ∃ (digest : Bytes) (G Q : (ecCurve c).Point) (w X Y : Nat), Digest h m digest ∧ OnAt G (Real.domain c).gx (Real.domain c).gy ∧
    OnAt Q x y ∧ w * s % (Real.domain c).n = 1 ∧
    OnAt ((leftmost c digest * w % (Real.domain c).n) • G + (r * w % (Real.domain c).n) • Q) X Y ∧ X % (Real.domain c).n = r

/-- `sig` is a valid ECDSA signature of `msg` with the algorithm called `alg`, in DER. -/
inductive EcdsaSig : PyStr → Material → Bytes → Bytes → Prop
  | es256 x y d msg r s (h : EcdsaValid .p256 x y .sha256 msg r s) : EcdsaSig (py! "ES256") (.ec .p256 x y d) msg (derSig r s)
  | es384 x y d msg r s (h : EcdsaValid .p384 x y .sha384 msg r s) : EcdsaSig (py! "ES384") (.ec .p384 x y d) msg (derSig r s)
  | es512 x y d msg r s (h : EcdsaValid .p521 x y .sha512 msg r s) : EcdsaSig (py! "ES512") (.ec .p521 x y d) msg (derSig r s)

end Psion.Spec
