import Verif.Spec.Sign

/-!
# Specification of signatures after RFC 7518

`Spec.SigOk` and `Spec.Signs` speak about signatures as the package `cryptography` makes and reads them. This file says what
`cryptography` documents about its signatures, and which signatures RFC 7518 (sections 3.2 – 3.5) prescribes. Both are written over
the mathematical operations, `Arith`.
-/

namespace Psion.Spec

open Psion

/-- The mathematical operations behind the signatures: HMAC, ECDSA (a signature is a pair of numbers), RSASSA-PKCS1-v1_5, and
RSASSA-PSS with a length of the salt. -/
structure Arith where
  hmac : Hash → Bytes → Bytes → Bytes
  ecNumbers : Curve → Nat → Nat → Nat → Hash → Bytes → Nat → Nat × Nat
  ecHolds : Curve → Nat → Nat → Hash → Bytes → Nat → Nat → Bool
  pkcsSign : Nat → Nat → RsaPriv → Hash → Bytes → Nat → Res Bytes
  pkcsHolds : Nat → Nat → Hash → Bytes → Bytes → Res Bool
  pssSign : Nat → Nat → RsaPriv → Hash → (salt : Nat) → Bytes → Nat → Res Bytes
  pssHolds : Nat → Nat → Hash → (salt : Nat) → Bytes → Bytes → Res Bool

/-- The number `n` in `len` octets, most significant first. -/
def octets : Nat → Nat → Bytes
  | 0, _ => []
  | len + 1, n => octets len (n / 256) ++ [byte n]

/-- Number of bits of a number. -/
def bits (n : Nat) : Nat := if n = 0 then 0 else Nat.log2 n + 1

/-- Length of a DER value: one octet up to 127, else the number of octets that follow and the length (here below 256). -/
def derLength (n : Nat) : Bytes := if n < 128 then [byte n] else [129, byte n]

/-- DER encoding of a natural number: the fewest octets that leave the sign bit clear. -/
def derNumber (n : Nat) : Bytes :=
  [2] ++ derLength (bits n / 8 + 1) ++ octets (bits n / 8 + 1) n

/-- DER encoding of `SEQUENCE { r INTEGER, s INTEGER }`, the form in which `cryptography` returns and expects ECDSA signatures. -/
def derSig (r s : Nat) : Bytes :=
  [48] ++ derLength (derNumber r ++ derNumber s).length ++ (derNumber r ++ derNumber s)

/-- Length of a digest in octets. -/
def digestSize : Hash → Nat
  | .sha256 => 32
  | .sha384 => 48
  | .sha512 => 64

/-- `padding.PSS.MAX_LENGTH`: the longest salt that fits a modulus (`calculate_max_pss_salt_length` of `cryptography`). -/
def maxSalt (n : Nat) (h : Hash) : Nat := (bits n + 6) / 8 - digestSize h - 2

/-- What `cryptography` documents about the operations that the library calls: ECDSA signatures are DER encoded, and nothing
else is accepted; PSS is called with `MAX_LENGTH` by `/repo/src/psion/jose/jwa/jwk.py:900-903,938-943`. -/
structure Documented (ar : Arith) (cr : Crypto) : Prop where
  hmac : ∀ h k m, cr.hmac h k m = ar.hmac h k m
  ecSign : ∀ c x y d h m seed,
    cr.ecSign c x y d h m seed = derSig (ar.ecNumbers c x y d h m seed).1 (ar.ecNumbers c x y d h m seed).2
  ecVerify : ∀ c x y h m sig, cr.ecVerify c x y h m sig = true ↔ ∃ r s, sig = derSig r s ∧ ar.ecHolds c x y h m r s = true
  pkcsSign : ∀ n e p h m seed, cr.rsaSign n e p .pkcs1v15 h m seed = ar.pkcsSign n e p h m seed
  pkcsVerify : ∀ n e h m sig, cr.rsaVerify n e .pkcs1v15 h m sig = ar.pkcsHolds n e h m sig
  pssSign : ∀ n e p h m seed, cr.rsaSign n e p .pss h m seed = ar.pssSign n e p h (maxSalt n h) m seed
  pssVerify : ∀ n e h m sig, cr.rsaVerify n e .pss h m sig = ar.pssHolds n e h (maxSalt n h) m sig

/-- What is made with this key holds, if it is an RSA key, and a PSS signature has one length of salt. -/
structure ArithLaws (ar : Arith) (key : Material) : Prop where
  pkcs : ∀ n e p h m seed sig, key = .rsa n e (some p) → ar.pkcsSign n e p h m seed = .ok sig → ar.pkcsHolds n e h m sig = .ok true
  pss : ∀ n e p h l m seed sig, key = .rsa n e (some p) → ar.pssSign n e p h l m seed = .ok sig → ar.pssHolds n e h l m sig = .ok true
  salt : ∀ n e h l l' m sig, ar.pssHolds n e h l m sig = .ok true → ar.pssHolds n e h l' m sig = .ok true → l = l'

/-- RFC 7518, sections 3.2 – 3.5: `sig` is a valid signature of `msg` under the key with the algorithm called `alg`. ECDSA signatures are the
two numbers in octets of fixed length, one after the other; the salt of a PSS signature is as long as the digest. -/
inductive RfcSig (ar : Arith) : PyStr → Material → Bytes → Bytes → Prop
  | hs256 s msg : RfcSig ar (py! "HS256") (.oct s) msg (ar.hmac .sha256 s msg)
  | hs384 s msg : RfcSig ar (py! "HS384") (.oct s) msg (ar.hmac .sha384 s msg)
  | hs512 s msg : RfcSig ar (py! "HS512") (.oct s) msg (ar.hmac .sha512 s msg)
  | rs256 n e p msg sig (h : ar.pkcsHolds n e .sha256 msg sig = .ok true) : RfcSig ar (py! "RS256") (.rsa n e p) msg sig
  | rs384 n e p msg sig (h : ar.pkcsHolds n e .sha384 msg sig = .ok true) : RfcSig ar (py! "RS384") (.rsa n e p) msg sig
  | rs512 n e p msg sig (h : ar.pkcsHolds n e .sha512 msg sig = .ok true) : RfcSig ar (py! "RS512") (.rsa n e p) msg sig
  | es256 x y d msg r s (hr : r < 256 ^ 32) (hs : s < 256 ^ 32) (h : ar.ecHolds .p256 x y .sha256 msg r s = true) :
      RfcSig ar (py! "ES256") (.ec .p256 x y d) msg (octets 32 r ++ octets 32 s)
  | es384 x y d msg r s (hr : r < 256 ^ 48) (hs : s < 256 ^ 48) (h : ar.ecHolds .p384 x y .sha384 msg r s = true) :
      RfcSig ar (py! "ES384") (.ec .p384 x y d) msg (octets 48 r ++ octets 48 s)
  | es512 x y d msg r s (hr : r < 2 ^ 521) (hs : s < 2 ^ 521) (h : ar.ecHolds .p521 x y .sha512 msg r s = true) :
      RfcSig ar (py! "ES512") (.ec .p521 x y d) msg (octets 66 r ++ octets 66 s)
  | ps256 n e p msg sig (h : ar.pssHolds n e .sha256 32 msg sig = .ok true) : RfcSig ar (py! "PS256") (.rsa n e p) msg sig
  | ps384 n e p msg sig (h : ar.pssHolds n e .sha384 48 msg sig = .ok true) : RfcSig ar (py! "PS384") (.rsa n e p) msg sig
  | ps512 n e p msg sig (h : ar.pssHolds n e .sha512 64 msg sig = .ok true) : RfcSig ar (py! "PS512") (.rsa n e p) msg sig

/-- A token after RFC 7515 and 7518: three parts joined by dots, the base64url texts of a header that is valid and names the algorithm
`a`, of the payload, and of a signature of the first two parts after RFC 7518. The members of the key permit its use. -/
def RfcToken (ar : Arith) (fe : FloatEnv) (key : Jwk) (a : PyStr) (tok : Bytes) (header : Dict PyStr Val) (payload : Bytes) : Prop :=
  ∃ hb pb sb raw hd sig, tok = hb ++ by! "." ++ pb ++ by! "." ++ sb ∧ 46 ∉ hb ∧ 46 ∉ pb ∧ 46 ∉ sb ∧
    b64urlDecode hb = .ok raw ∧ jsonLoads fe raw = .ok (.dict hd) ∧ HeaderOk hd ∧ header = fullDict hd ∧
    Dict.get hd (py! "alg") = some (.str a) ∧ Suits key.data header ∧ b64urlDecode pb = .ok payload ∧
    b64urlDecode sb = .ok sig ∧ RfcSig ar a key.mat (hb ++ by! "." ++ pb) sig

/-! ## Keys -/

/-- RFC 7518, sections 3.2, 3.3 and 3.5: a secret is at least as long as the digest, and a modulus has at least 2048 bits. -/
def StrongFor (a : PyStr) : Material → Prop
  | .oct s => (a = py! "HS256" → 32 ≤ s.length) ∧ (a = py! "HS384" → 48 ≤ s.length) ∧ (a = py! "HS512" → 64 ≤ s.length)
  | .rsa n _ _ => 2 ^ 2047 ≤ n
  | .ec .. => True

/-- The generators draw what they are asked for: that many octets; a modulus of that many bits. -/
structure Sized (f : Fresh) : Prop where
  oct : ∀ n, (f.oct n).length = n
  rsa : ∀ e size n e' r, 0 < size → f.rsa e size = .ok (n, e', r) → 2 ^ (size - 1) ≤ n ∧ n < 2 ^ size

/-- Octets of a coordinate of a curve (RFC 7518, section 6.2.1.2). -/
def coordinateSize : Curve → Nat
  | .p256 => 32
  | .p384 => 48
  | .p521 => 66

/-- The fewest octets of a number (RFC 7518, section 2, Base64urlUInt: zero takes one). -/
def fewest (n : Nat) : Nat := if n = 0 then 1 else (bits n + 7) / 8

/-- The text of a number in so many octets. -/
def octetText (len n : Nat) : Val := .str ((b64urlEncode (octets len n)).map (fun b => b.val))

/-- The numbers of a key by their names in a JWK (RFC 7518, sections 6.2 and 6.3). -/
def numberOf : Material → PyStr → Option Nat
  | .oct _, _ => none
  | .ec _ x y d, k => if k = py! "x" then some x else if k = py! "y" then some y else if k = py! "d" then d else none
  | .rsa n e p, k =>
    if k = py! "n" then some n else if k = py! "e" then some e
    else if k = py! "d" then p.map (·.d) else if k = py! "p" then p.map (·.p) else if k = py! "q" then p.map (·.q)
    else if k = py! "dp" then p.map (·.dp) else if k = py! "dq" then p.map (·.dq) else if k = py! "qi" then p.map (·.qi) else none

/-- The octets in which RFC 7518 wants a number of the key written: the size of a coordinate, for RSA the fewest. -/
def rfcSize : Material → Nat → Nat
  | .ec c _ _ _, _ => coordinateSize c
  | _, n => fewest n

end Psion.Spec
