import Verif.Real.Pem
import Verif.Real.Float

/-!
# The external operations

An instance of `Crypto` with the real algorithms.
-/

namespace Psion.Real

open Psion Psion.Spec

/-- The mathematical operations. -/
def arith : Arith where
  hmac := hmac
  ecNumbers c _ _ d h m seed := ecdsaSign c d h m seed
  ecHolds := ecdsaHolds
  pkcsSign n _ p h m _ := pkcsSign n p.d h m
  pkcsHolds n e h m sig := .ok (pkcsHolds n e h m sig)
  pssSign n _ p h l m seed := pssSign n p.d h l m seed
  pssHolds n e h l m sig := .ok (pssHolds n e h l m sig)

/-- The two numbers of a DER encoded signature. -/
def readSig (sig : Bytes) : Option (Nat × Nat) :=
  match readSeq sig with
  | some [(2, r), (2, s)] => if derSig (number r) (number s) = sig then some (number r, number s) else none
  | _ => none

/-- Odd part of a number and the number of halvings. -/
def oddPart : Nat → Nat → Nat
  | 0, t => t
  | fuel + 1, t => if t % 2 = 0 ∧ t ≠ 0 then force (t / 2) fun t' => oddPart fuel t' else t

/-- Squares `a ^ k`, `a ^ (2 k)`, … until the square of one that is not `± 1` is `1`. -/
def findRoot (n : Nat) : Nat → Nat → Option Nat
  | 0, _ => none
  | fuel + 1, c => if c ≠ 1 ∧ c ≠ n - 1 ∧ c * c % n = 1 then some (Nat.gcd (c + 1) n)
    else force (c * c % n) fun c' => findRoot n fuel c'

/-- `rsa_recover_prime_factors`. -/
def recover (n e d : Nat) : Res (Nat × Nat) :=
  force (oddPart (Spec.bits (d * e)) (d * e - 1)) fun t =>
  match (List.range 50).findSome? fun i => findRoot n (Spec.bits (d * e)) (powMod (2 * (i + 1)) t n) with
  | some p => force (n / p) fun q => .ok (max p q, min p q)
  | none => .error .valueErr

/-- The part of a file name before the first slash. -/
def firstPart (name : Bytes) : Bytes := name.takeWhile (· ≠ 47)

/-- `_check_public_key_components` and `_check_private_key_components`, and the check of a point. `open` finds no file, and refuses names
with a part longer than 255 octets. -/
def crypto : Psion.Crypto where
  fe := floats
  hmac := hmac
  ecPubOk c x y := (domain c).on x y
  ecPrivOk c x y d := decide (0 < d ∧ d < (domain c).n) && ((domain c).affine ((domain c).mul d (domain c).base) == some (x, y))
  ecSign c x y d h m seed := derSig (arith.ecNumbers c x y d h m seed).1 (arith.ecNumbers c x y d h m seed).2
  ecVerify c x y h m sig :=
    match readSig sig with
    | some (r, s) => ecdsaHolds c x y h m r s
    | none => false
  rsaPubOk n e := decide (3 ≤ n ∧ 3 ≤ e ∧ e < n ∧ e % 2 = 1)
  rsaPrivOk n e r := decide (3 ≤ n ∧ 3 ≤ e ∧ e < n ∧ e % 2 = 1 ∧ r.p < n ∧ r.q < n ∧ r.dp < n ∧ r.dq < n ∧ r.qi < n ∧ r.d < n ∧
    r.dp % 2 = 1 ∧ r.dq % 2 = 1 ∧ r.p * r.q = n)
  rsaRecover := recover
  rsaDmp1 d p := .ok (d % (p - 1))
  rsaDmq1 d q := .ok (d % (q - 1))
  rsaIqmp p q := .ok (powMod q (p - 2) p)
  rsaSign n e r pad h m seed :=
    match pad with
    | .pkcs1v15 => arith.pkcsSign n e r h m seed
    | .pss => arith.pssSign n e r h (maxSalt n h) m seed
  rsaVerify n e pad h m sig :=
    match pad with
    | .pkcs1v15 => arith.pkcsHolds n e h m sig
    | .pss => arith.pssHolds n e h (maxSalt n h) m sig
  readFile name := if 255 < (firstPart name).length then .error (.ext 36) else .ok none
  loadPemPrivate s password :=
    match password with
    | none => loadPrivate s
    | some _ => (loadPrivate s).bind fun _ => .error .typeErr
  loadPemPublic := loadPublic

end Psion.Real
