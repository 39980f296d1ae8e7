import Verif.Real.Sha2
import Verif.Spec.Rfc7518

/-!
# RSA signatures

RSASSA-PKCS1-v1_5 and RSASSA-PSS of RFC 8017.
-/

namespace Psion.Real

open Psion

/-- `acc * b ^ e` modulo `n`, for `e` below `2 ^ fuel`. -/
def powModAux (n : Nat) : Nat → Nat → Nat → Nat → Nat
  | 0, _, _, acc => acc
  | fuel + 1, b, e, acc =>
    force (if e % 2 = 1 then acc * b % n else acc) fun acc' =>
    force (b * b % n) fun b' =>
    force (e / 2) fun e' =>
    powModAux n fuel b' e' acc'

/-- `b ^ e` modulo `n`. -/
def powMod (b e n : Nat) : Nat := powModAux n (Spec.bits e) (b % n) e (1 % n)

/-- Octets of the modulus. -/
def modulusSize (n : Nat) : Nat := (Spec.bits n + 7) / 8

/-- `DigestInfo` of RFC 8017, section 9.2, note 1, without the digest. -/
def digestInfo : Hash → Bytes
  | .sha256 => [0x30, 0x31, 0x30, 0x0d, 0x06, 0x09, 0x60, 0x86, 0x48, 0x01, 0x65, 0x03, 0x04, 0x02, 0x01, 0x05, 0x00, 0x04, 0x20]
  | .sha384 => [0x30, 0x41, 0x30, 0x0d, 0x06, 0x09, 0x60, 0x86, 0x48, 0x01, 0x65, 0x03, 0x04, 0x02, 0x02, 0x05, 0x00, 0x04, 0x30]
  | .sha512 => [0x30, 0x51, 0x30, 0x0d, 0x06, 0x09, 0x60, 0x86, 0x48, 0x01, 0x65, 0x03, 0x04, 0x02, 0x03, 0x05, 0x00, 0x04, 0x40]

/-- EMSA-PKCS1-v1_5 in `k` octets. -/
def pkcsEncode (k : Nat) (h : Hash) (m : Bytes) : Option Bytes :=
  let t := digestInfo h ++ (sha2 h).hash m
  if k < t.length + 11 then none else some ([0, 1] ++ List.replicate (k - t.length - 3) 255 ++ [0] ++ t)

/-- RSASP1 and the octets of the result. -/
def rsaPrivate (n d : Nat) (em : Bytes) : Bytes := octetsOf (modulusSize n) (powMod (number em) d n)

/-- The number that an RSA signature stands for (RSAVP1), unless the signature has the wrong length or is not below the modulus. -/
def rsaPublic (n e : Nat) (sig : Bytes) : Option Nat :=
  if sig.length = modulusSize n ∧ number sig < n then some (powMod (number sig) e n) else none

/-- RSASSA-PKCS1-V1_5-SIGN. -/
def pkcsSign (n d : Nat) (h : Hash) (m : Bytes) : Res Bytes :=
  match pkcsEncode (modulusSize n) h m with
  | some em => .ok (rsaPrivate n d em)
  | none => .error .valueErr

/-- RSASSA-PKCS1-V1_5-VERIFY. -/
def pkcsHolds (n e : Nat) (h : Hash) (m sig : Bytes) : Bool :=
  match rsaPublic n e sig, pkcsEncode (modulusSize n) h m with
  | some v, some em => octetsOf (modulusSize n) v == em
  | _, _ => false

/-- MGF1 with the hash function. -/
def mgf1 (h : Hash) (seed : Bytes) (len : Nat) : Bytes :=
  ((List.range (len / (sha2 h).size + 1)).flatMap fun i => (sha2 h).hash (seed ++ octetsOf 4 i)).take len

def xorBytes (a b : Bytes) : Bytes := List.zipWith (fun x y => byte (x.val ^^^ y.val)) a b

/-- The first octet with only its `j` low bits. -/
def keepLow (j : Nat) : Bytes → Bytes
  | [] => []
  | b :: s => byte (b.val % 2 ^ j) :: s

/-- EMSA-PSS of RFC 8017, section 9.1.1, in `emBits` bits, with this salt. -/
def pssEncode (emBits : Nat) (h : Hash) (m salt : Bytes) : Option Bytes :=
  let emLen := (emBits + 7) / 8
  let hLen := (sha2 h).size
  if emLen < hLen + salt.length + 2 then none
  else
    let hash := (sha2 h).hash (List.replicate 8 0 ++ (sha2 h).hash m ++ salt)
    let db := List.replicate (emLen - salt.length - hLen - 2) 0 ++ [1] ++ salt
    some (keepLow (8 - (8 * emLen - emBits)) (xorBytes db (mgf1 h hash (emLen - hLen - 1))) ++ hash ++ [0xbc])

/-- EMSA-PSS-VERIFY of RFC 8017, section 9.1.2, for salts of `sLen` octets. -/
def pssCheck (emBits : Nat) (h : Hash) (sLen : Nat) (m em : Bytes) : Bool :=
  let emLen := (emBits + 7) / 8
  let hLen := (sha2 h).size
  let masked := em.take (emLen - hLen - 1)
  let hash := (em.drop (emLen - hLen - 1)).take hLen
  let j := 8 - (8 * emLen - emBits)
  let db := keepLow j (xorBytes masked (mgf1 h hash (emLen - hLen - 1)))
  let salt := db.drop (emLen - hLen - sLen - 1)
  decide (em.length = emLen) && decide (hLen + sLen + 2 ≤ emLen) && (em.drop (emLen - 1) == [0xbc]) && (keepLow j masked == masked) &&
    (db.take (emLen - hLen - sLen - 1) == List.replicate (emLen - sLen - hLen - 2) 0 ++ [1]) &&
    ((sha2 h).hash (List.replicate 8 0 ++ (sha2 h).hash m ++ salt) == hash)

/-- RSASSA-PSS-SIGN with a salt of `sLen` octets drawn from `seed`. -/
def pssSign (n d : Nat) (h : Hash) (sLen : Nat) (m : Bytes) (seed : Nat) : Res Bytes :=
  match pssEncode (Spec.bits n - 1) h m (octetsOf sLen seed) with
  | some em => .ok (rsaPrivate n d em)
  | none => .error .valueErr

/-- RSASSA-PSS-VERIFY. -/
def pssHolds (n e : Nat) (h : Hash) (sLen : Nat) (m sig : Bytes) : Bool :=
  match rsaPublic n e sig with
  | some v =>
    let emLen := (Spec.bits n - 1 + 7) / 8
    decide (v < 256 ^ emLen) && pssCheck (Spec.bits n - 1) h sLen m (octetsOf emLen v)
  | none => false

end Psion.Real
