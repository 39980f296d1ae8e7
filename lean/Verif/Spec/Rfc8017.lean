import Verif.Spec.Asn1
import Verif.Spec.Fips180
import Mathlib.Data.Nat.Prime.Defs

/-!
# Specification of RSA keys and signatures after RFC 8017
-/

namespace Psion.Spec

open Psion

/-- RFC 8017, section 3: a private key with two primes. The modulus is their product, and the private exponent is an inverse of the public
one modulo `p - 1` and `q - 1`. -/
structure RsaKey (n e : Nat) (r : RsaPriv) : Prop where
  p : r.p.Prime
  q : r.q.Prime
  ne : r.p ≠ r.q
  n : n = r.p * r.q
  dp : e * r.d % (r.p - 1) = 1 % (r.p - 1)
  dq : e * r.d % (r.q - 1) = 1 % (r.q - 1)
  pos : 0 < e * r.d

/-- A DER value: tag, length, content. -/
def derValue (tag : Byte) (content : Bytes) : Bytes := [tag] ++ derLength content.length ++ content

/-- A DER object identifier. -/
def derOid (a b : Nat) (rest : List Nat) : Bytes := derValue 6 (oidOctets a b rest)

/-- The last number of the object identifier of a hash function (RFC 8017, appendix B.1). -/
def hashArc : Hash → Nat
  | .sha256 => 1
  | .sha384 => 2
  | .sha512 => 3

/-- `DigestInfo` (RFC 8017, section 9.2): the object identifier 2.16.840.1.101.3.4.2.x of the hash function with NULL parameters, and the
digest. -/
def rsaDigestInfo (h : Hash) (digest : Bytes) : Bytes :=
  derValue 0x30 (derValue 0x30 (derOid 2 16 [840, 1, 101, 3, 4, 2, hashArc h] ++ [5, 0]) ++ derValue 4 digest)

/-- EMSA-PKCS1-v1_5 (section 9.2) in `k` octets: the octets 0 and 1, at least eight octets 255, the octet 0 and the `DigestInfo`. -/
def PkcsEncoded (k : Nat) (h : Hash) (m em : Bytes) : Prop :=
  ∃ digest fill, Digest h m digest ∧ 8 ≤ fill ∧ em = 0 :: 1 :: List.replicate fill 255 ++ 0 :: rsaDigestInfo h digest ∧ em.length = k

/-- MGF1 (appendix B.2.1): the first `len` octets of the digests of the seed with a counter of four octets. -/
def Mgf1 (h : Hash) (seed : Bytes) (len : Nat) (mask : Bytes) : Prop :=
  ∃ pieces : List Bytes, (∀ i piece, pieces[i]? = some piece → Digest h (seed ++ octets 4 i) piece) ∧ len ≤ pieces.flatten.length ∧
    mask = pieces.flatten.take len

/-- EMSA-PSS (section 9.1) in `size` bits with a salt of `saltLen` octets: the data block is some zeros, the octet 1 and the salt; it is
masked, and as many bits as the octets have more than `size` are cleared; then come the digest of eight zeros, the digest of the message and
the salt, and the octet 0xbc. -/
def PssEncoded (size : Nat) (h : Hash) (saltLen : Nat) (m em : Bytes) : Prop :=
  ∃ (digest salt hashed masked mask : Bytes) (zeros : Nat), Digest h m digest ∧ salt.length = saltLen ∧
    Digest h (List.replicate 8 0 ++ digest ++ salt) hashed ∧ Mgf1 h hashed (zeros + 1 + saltLen) mask ∧
    octetBits masked = List.replicate (8 * ((size + 7) / 8) - size) false ++
      (List.zipWith xor (octetBits (List.replicate zeros 0 ++ 1 :: salt)) (octetBits mask)).drop (8 * ((size + 7) / 8) - size) ∧
    em = masked ++ hashed ++ [0xbc] ∧ em.length = (size + 7) / 8

/-- RSAVP1 (section 5.2.2): the signature has as many octets as the modulus, its number is below the modulus, and the power of it is the
number of the encoded message. -/
def RsaOpens (n e : Nat) (sig em : Bytes) : Prop :=
  sig.length = (bits n + 7) / 8 ∧ octetsValue sig < n ∧ octetsValue sig ^ e % n = octetsValue em

/-- Sections 8.1 and 8.2: `sig` is a valid signature of `msg` with the algorithm called `alg`. The salt of PSS is the longest one that fits,
as the library asks for it. -/
inductive RsaSig : PyStr → Material → Bytes → Bytes → Prop
  | rs256 n e p msg sig em (he : PkcsEncoded ((bits n + 7) / 8) .sha256 msg em) (h : RsaOpens n e sig em) :
      RsaSig (py! "RS256") (.rsa n e p) msg sig
  | rs384 n e p msg sig em (he : PkcsEncoded ((bits n + 7) / 8) .sha384 msg em) (h : RsaOpens n e sig em) :
      RsaSig (py! "RS384") (.rsa n e p) msg sig
  | rs512 n e p msg sig em (he : PkcsEncoded ((bits n + 7) / 8) .sha512 msg em) (h : RsaOpens n e sig em) :
      RsaSig (py! "RS512") (.rsa n e p) msg sig
  | ps256 n e p msg sig em (he : PssEncoded (bits n - 1) .sha256 (maxSalt n .sha256) msg em) (h : RsaOpens n e sig em) :
      RsaSig (py! "PS256") (.rsa n e p) msg sig
  | ps384 n e p msg sig em (he : PssEncoded (bits n - 1) .sha384 (maxSalt n .sha384) msg em) (h : RsaOpens n e sig em) :
      RsaSig (py! "PS384") (.rsa n e p) msg sig
  | ps512 n e p msg sig em (he : PssEncoded (bits n - 1) .sha512 (maxSalt n .sha512) msg em) (h : RsaOpens n e sig em) :
      RsaSig (py! "PS512") (.rsa n e p) msg sig

end Psion.Spec
