import Verif.Real.Rsa

/-!
# ECDSA

The curves P-256, P-384 and P-521 of FIPS 186-4 and signatures over them. Points are in Jacobian coordinates.
-/

namespace Psion.Real

open Psion

/-- A curve `y² = x³ - 3x + b` over the field of `p` elements with a base point of order `n`. -/
structure Domain where
  p : Nat
  b : Nat
  gx : Nat
  gy : Nat
  n : Nat

def domain : Curve → Domain
  | .p256 =>
    { p := 2 ^ 256 - 2 ^ 224 + 2 ^ 192 + 2 ^ 96 - 1
      b := 0x5ac635d8aa3a93e7b3ebbd55769886bc651d06b0cc53b0f63bce3c3e27d2604b
      gx := 0x6b17d1f2e12c4247f8bce6e563a440f277037d812deb33a0f4a13945d898c296
      gy := 0x4fe342e2fe1a7f9b8ee7eb4a7c0f9e162bce33576b315ececbb6406837bf51f5
      n := 0xffffffff00000000ffffffffffffffffbce6faada7179e84f3b9cac2fc632551 }
  | .p384 =>
    { p := 2 ^ 384 - 2 ^ 128 - 2 ^ 96 + 2 ^ 32 - 1
      b := 0xb3312fa7e23ee7e4988e056be3f82d19181d9c6efe8141120314088f5013875ac656398d8a2ed19d2a85c8edd3ec2aef
      gx := 0xaa87ca22be8b05378eb1c71ef320ad746e1d3b628ba79b9859f741e082542a385502f25dbf55296c3a545e3872760ab7
      gy := 0x3617de4a96262c6f5d9e98bf9292dc29f8f41dbd289a147ce9da3113b5f0b8c00a60b1ce1d7e819d7a431d7c90ea0e5f
      n := 0xffffffffffffffffffffffffffffffffffffffffffffffffc7634d81f4372ddf581a0db248b0a77aecec196accc52973 }
  | .p521 =>
    { p := 2 ^ 521 - 1
      b := 0x0051953eb9618e1c9a1f929a21a0b68540eea2da725b99b315f3b8b489918ef109e156193951ec7e937b1652c0bd3bb1bf073573df883d2c34f1ef451fd46b503f00
      gx := 0x00c6858e06b70404e9cd9e3ecb662395b4429c648139053fb521f828af606b4d3dbaa14b5e77efe75928fe1dc127a2ffa8de3348b3c1856a429bf97e7e31c2e5bd66
      gy := 0x011839296a789a3bc0045c8a5fb42c7d1bd998f54449579b446817afbd17273e662c97ee72995ef42640c550b9013fad0761353c7086a272c24088be94769fd16650
      n := 0x01fffffffffffffffffffffffffffffffffffffffffffffffffffffffffffffffffa51868783bf2f966b7fcc0148f709a5d03bb5c9b8899c47aebb6fb71e91386409 }

/-- A point in Jacobian coordinates; `z = 0` is the point at infinity. -/
structure Point where
  x : Nat
  y : Nat
  z : Nat

/-- `a - b` in the field. -/
def Domain.sub (c : Domain) (a b : Nat) : Nat := (a + (c.p - b % c.p)) % c.p

def Domain.double (c : Domain) (q : Point) (k : Point → Point) : Point :=
  force (q.z * q.z % c.p) fun delta =>
  force (q.y * q.y % c.p) fun gamma =>
  force (q.x * gamma % c.p) fun beta =>
  force (3 * c.sub q.x delta * (q.x + delta) % c.p) fun alpha =>
  force (c.sub (alpha * alpha % c.p) (8 * beta)) fun x3 =>
  force (c.sub ((q.y + q.z) * (q.y + q.z)) (gamma + delta)) fun z3 =>
  force (c.sub (alpha * c.sub (4 * beta) x3 % c.p) (8 * gamma * gamma)) fun y3 =>
  k ⟨x3, y3, z3⟩

def Domain.add (c : Domain) (q r : Point) (k : Point → Point) : Point :=
  if q.z = 0 then k r
  else if r.z = 0 then k q
  else
    force (q.z * q.z % c.p) fun z1z1 =>
    force (r.z * r.z % c.p) fun z2z2 =>
    force (q.x * z2z2 % c.p) fun u1 =>
    force (r.x * z1z1 % c.p) fun u2 =>
    force (q.y * r.z * z2z2 % c.p) fun s1 =>
    force (r.y * q.z * z1z1 % c.p) fun s2 =>
    if u1 = u2 then (if s1 = s2 then c.double q k else k ⟨1, 1, 0⟩)
    else
      force (c.sub u2 u1) fun h =>
      force (c.sub s2 s1) fun t =>
      force (h * h % c.p) fun h2 =>
      force (h * h2 % c.p) fun h3 =>
      force (u1 * h2 % c.p) fun v =>
      force (c.sub (t * t % c.p) (h3 + 2 * v)) fun x3 =>
      force (c.sub (t * c.sub v x3 % c.p) (s1 * h3)) fun y3 =>
      force (h * q.z * r.z % c.p) fun z3 =>
      k ⟨x3, y3, z3⟩

/-- `acc + e * q`, for `e` below `2 ^ fuel`. -/
def Domain.mulAux (c : Domain) : Nat → Point → Nat → Point → Point
  | 0, _, _, acc => acc
  | fuel + 1, q, e, acc =>
    force (e / 2) fun e' =>
    if e % 2 = 1 then c.add acc q fun acc' => c.double q fun q' => c.mulAux fuel q' e' acc'
    else c.double q fun q' => c.mulAux fuel q' e' acc

def Domain.mul (c : Domain) (e : Nat) (q : Point) : Point := c.mulAux (Spec.bits e) q e ⟨1, 1, 0⟩

/-- The affine coordinates of a point. -/
def Domain.affine (c : Domain) (q : Point) : Option (Nat × Nat) :=
  if q.z = 0 then none
  else
    force (powMod q.z (c.p - 2) c.p) fun i =>
    force (q.x * (i * i) % c.p) fun x =>
    force (q.y * (i * i % c.p * i) % c.p) fun y => some (x, y)

/-- The point is on the curve. -/
def Domain.on (c : Domain) (x y : Nat) : Bool :=
  decide (x < c.p) && decide (y < c.p) && (y * y % c.p == c.sub (x * x * x + c.b) (3 * x))

def Domain.base (c : Domain) : Point := ⟨c.gx, c.gy, 1⟩

/-- The number that is signed: the leftmost bits of the digest. -/
def Domain.digest (c : Domain) (h : Hash) (m : Bytes) : Nat :=
  number ((sha2 h).hash m) >>> (8 * (sha2 h).size - Spec.bits c.n)

/-- ECDSA with the secret number `k`. -/
def ecdsaWith (crv : Curve) (d : Nat) (h : Hash) (m : Bytes) (k : Nat) : Nat × Nat :=
  let c := domain crv
  match c.affine (c.mul k c.base) with
  | none => (0, 0)
  | some (x, _) => force (x % c.n) fun r => force (powMod k (c.n - 2) c.n * (c.digest h m + r * d) % c.n) fun s => (r, s)

/-- Secret numbers are drawn until neither part of the signature is zero. -/
def ecdsaTries (crv : Curve) (d : Nat) (h : Hash) (m : Bytes) : Nat → Nat → Nat × Nat
  | 0, _ => (0, 0)
  | fuel + 1, seed =>
    match ecdsaWith crv d h m (seed % ((domain crv).n - 1) + 1) with
    | (r, s) => if r = 0 ∨ s = 0 then ecdsaTries crv d h m fuel (seed + 1) else (r, s)

/-- ECDSA with the secret numbers drawn from `seed`. Nine of them are enough: `ecdsaSign_ok` in `Verif/Real/EcdsaLemmas.lean`. -/
def ecdsaSign (crv : Curve) (d : Nat) (h : Hash) (m : Bytes) (seed : Nat) : Nat × Nat := ecdsaTries crv d h m 9 seed

def ecdsaHolds (crv : Curve) (x y : Nat) (h : Hash) (m : Bytes) (r s : Nat) : Bool :=
  let c := domain crv
  decide (0 < r ∧ r < c.n ∧ 0 < s ∧ s < c.n) &&
    force (powMod s (c.n - 2) c.n) fun w =>
    force (c.digest h m * w % c.n) fun u1 =>
    force (r * w % c.n) fun u2 =>
    match c.affine (c.add (c.mul u1 c.base) (c.mul u2 ⟨x, y, 1⟩) id) with
    | none => false
    | some (v, _) => v % c.n == r

end Psion.Real
