import Mathlib.Analysis.SpecialFunctions.Pow.Real
import Mathlib.NumberTheory.PrimeCounting
import Verif.Spec.Bits
import Verif.Spec.Sign

/-!
# SHA-2 as in FIPS 180-4 and HMAC as in RFC 2104

Messages and digests are lists of bits, words are bit vectors. The numbers in parentheses are sections of FIPS 180-4.
-/

namespace Psion.Spec

open Psion

/-- What SHA-256 and SHA-512 differ in: the size of a word, the functions Σ₀, Σ₁, σ₀, σ₁ and the number of rounds (4.1.2, 4.1.3). -/
structure ShaFamily where
  w : Nat
  big0 : BitVec w → BitVec w
  big1 : BitVec w → BitVec w
  small0 : BitVec w → BitVec w
  small1 : BitVec w → BitVec w
  rounds : Nat

/-- (4.1.2) -/
def shaFamily32 : ShaFamily where
  w := 32
  big0 x := x.rotateRight 2 ^^^ x.rotateRight 13 ^^^ x.rotateRight 22
  big1 x := x.rotateRight 6 ^^^ x.rotateRight 11 ^^^ x.rotateRight 25
  small0 x := x.rotateRight 7 ^^^ x.rotateRight 18 ^^^ x >>> 3
  small1 x := x.rotateRight 17 ^^^ x.rotateRight 19 ^^^ x >>> 10
  rounds := 64

/-- (4.1.3) -/
def shaFamily64 : ShaFamily where
  w := 64
  big0 x := x.rotateRight 28 ^^^ x.rotateRight 34 ^^^ x.rotateRight 39
  big1 x := x.rotateRight 14 ^^^ x.rotateRight 18 ^^^ x.rotateRight 41
  small0 x := x.rotateRight 1 ^^^ x.rotateRight 8 ^^^ x >>> 7
  small1 x := x.rotateRight 19 ^^^ x.rotateRight 61 ^^^ x >>> 6
  rounds := 80

def shaFamily : Hash → ShaFamily
  | .sha256 => shaFamily32
  | .sha384 => shaFamily64
  | .sha512 => shaFamily64

/-- The first `w` bits of the fractional part of the `k`-th root of `p`: the integral part is beyond the word. -/
noncomputable def rootBits (w k p : Nat) : BitVec w := BitVec.ofNat w ⌊(p : ℝ) ^ ((1 : ℝ) / k) * 2 ^ w⌋₊

/-- The prime number with `i` smaller ones. -/
noncomputable def primeAt (i : Nat) : Nat := Nat.nth Nat.Prime i

/-- The constants of the rounds, from the cube roots of the first prime numbers (4.2.2, 4.2.3). -/
noncomputable def shaConst (f : ShaFamily) (t : Nat) : BitVec f.w := rootBits f.w 3 (primeAt t)

/-- The words of the initial hash value, from the square roots of the first prime numbers, and of the next eight for SHA-384 (5.3.3 to
5.3.5). -/
noncomputable def shaInit (h : Hash) (i : Nat) : BitVec (shaFamily h).w :=
  match h with
  | .sha256 => rootBits _ 2 (primeAt i)
  | .sha384 => rootBits _ 2 (primeAt (8 + i))
  | .sha512 => rootBits _ 2 (primeAt i)

/-- The working variables. -/
structure ShaVars (w : Nat) where
  a : BitVec w
  b : BitVec w
  c : BitVec w
  d : BitVec w
  e : BitVec w
  f : BitVec w
  g : BitVec w
  h : BitVec w

def shaCh {w : Nat} (x y z : BitVec w) : BitVec w := (x &&& y) ^^^ (~~~x &&& z)

def shaMaj {w : Nat} (x y z : BitVec w) : BitVec w := (x &&& y) ^^^ (x &&& z) ^^^ (y &&& z)

/-- The message schedule of a block (6.2.2 step 1, 6.4.2 step 1). -/
def shaSchedule (f : ShaFamily) (block : Nat → BitVec f.w) (t : Nat) : BitVec f.w :=
  if t < 16 then block t
  else f.small1 (shaSchedule f block (t - 2)) + shaSchedule f block (t - 7) + f.small0 (shaSchedule f block (t - 15)) +
    shaSchedule f block (t - 16)
termination_by t
decreasing_by all_goals omega

/-- A round (step 3). -/
def shaRound (f : ShaFamily) (k w : BitVec f.w) (s : ShaVars f.w) : ShaVars f.w :=
  let t1 := s.h + f.big1 s.e + shaCh s.e s.f s.g + k + w
  let t2 := f.big0 s.a + shaMaj s.a s.b s.c
  ⟨t1 + t2, s.a, s.b, s.c, s.d + t1, s.e, s.f, s.g⟩

/-- The first `t` rounds of a block. -/
noncomputable def shaRounds (f : ShaFamily) (block : Nat → BitVec f.w) (s : ShaVars f.w) : Nat → ShaVars f.w
  | 0 => s
  | t + 1 => shaRound f (shaConst f t) (shaSchedule f block t) (shaRounds f block s t)

/-- The next hash value (step 4). -/
noncomputable def shaBlock (f : ShaFamily) (s : ShaVars f.w) (block : Nat → BitVec f.w) : ShaVars f.w :=
  let s' := shaRounds f block s f.rounds
  ⟨s'.a + s.a, s'.b + s.b, s'.c + s.c, s'.d + s.d, s'.e + s.e, s'.f + s.f, s'.g + s.g, s'.h + s.h⟩

/-- Word `i` of the padded message. -/
def shaWord (w : Nat) (m : List Bool) (i : Nat) : BitVec w := BitVec.ofNat w (ofBits ((m.drop (w * i)).take w))

/-- The hash value after `n` blocks of the padded message. -/
noncomputable def shaValue (h : Hash) (m : List Bool) : Nat → ShaVars (shaFamily h).w
  | 0 => ⟨shaInit h 0, shaInit h 1, shaInit h 2, shaInit h 3, shaInit h 4, shaInit h 5, shaInit h 6, shaInit h 7⟩
  | n + 1 => shaBlock (shaFamily h) (shaValue h m n) (fun j => shaWord _ m (16 * n + j))

/-- The bits of a hash value. -/
def shaBits {w : Nat} (s : ShaVars w) : List Bool :=
  bitsOf w s.a.toNat ++ bitsOf w s.b.toNat ++ bitsOf w s.c.toNat ++ bitsOf w s.d.toNat ++ bitsOf w s.e.toNat ++ bitsOf w s.f.toNat ++
    bitsOf w s.g.toNat ++ bitsOf w s.h.toNat

/-- The message with its padding: a one, the least number of zeros with which the last two words of a block remain, and in these the
length of the message (5.1). -/
def ShaPadded (w : Nat) (m p : List Bool) : Prop :=
  ∃ k, (m.length + 1 + k) % (16 * w) = 14 * w ∧ k < 16 * w ∧ p = m ++ true :: List.replicate k false ++ bitsOf (2 * w) m.length

/-- Bits of the digest. -/
def shaSize : Hash → Nat
  | .sha256 => 256
  | .sha384 => 384
  | .sha512 => 512

/-- `d` is the digest of the message `m`, both octets. -/
def Digest (h : Hash) (m d : Bytes) : Prop :=
  ∃ p, ShaPadded (shaFamily h).w (octetBits m) p ∧
    octetBits d = (shaBits (shaValue h p (p.length / (16 * (shaFamily h).w)))).take (shaSize h)

/-- Octets of a block. -/
def shaBlockSize : Hash → Nat
  | .sha256 => 64
  | .sha384 => 128
  | .sha512 => 128

/-- `mac` is the message authentication code of RFC 2104: keys longer than a block are hashed, shorter ones filled with zeros. -/
def Hmac (h : Hash) (key m mac : Bytes) : Prop :=
  ∃ short k inner, (key.length ≤ shaBlockSize h ∧ short = key ∨ shaBlockSize h < key.length ∧ Digest h key short) ∧
    k.length = shaBlockSize h ∧ k = short ++ List.replicate (shaBlockSize h - short.length) 0 ∧
    Digest h (k.map (fun b => byte (b.val ^^^ 0x36)) ++ m) inner ∧
    Digest h (k.map (fun b => byte (b.val ^^^ 0x5c)) ++ inner) mac

/-- RFC 7518, section 3.2: `sig` is the message authentication code of `msg` with the algorithm called `alg`. -/
inductive HmacSig : PyStr → Material → Bytes → Bytes → Prop
  | hs256 s msg sig (h : Hmac .sha256 s msg sig) : HmacSig (py! "HS256") (.oct s) msg sig
  | hs384 s msg sig (h : Hmac .sha384 s msg sig) : HmacSig (py! "HS384") (.oct s) msg sig
  | hs512 s msg sig (h : Hmac .sha512 s msg sig) : HmacSig (py! "HS512") (.oct s) msg sig

end Psion.Spec
