import Verif.Jose.Crypto

/-!
# SHA-2 and HMAC

The hash functions of FIPS 180-4 and the message authentication code of RFC 2104, so that the model can be run on the test vectors of the
repository and of the standards. Nothing in the model depends on this file. Words are natural numbers below `2 ^ w`.
-/

namespace Psion.Real

open Psion

/-- `k n`, with `n` evaluated first when the kernel computes. -/
def force {α : Type} (n : Nat) (k : Nat → α) : α :=
  match n with
  | 0 => k 0
  | m + 1 => k (m + 1)

theorem force_eq {α : Type} (n : Nat) (k : Nat → α) : force n k = k n := by
  cases n <;> rfl

/-- The parameters in which the hash functions differ: bits of a word, the rotations and shifts of the functions Σ₀, Σ₁, σ₀, σ₁, the
constants of the rounds, the initial state, and octets of the digest. -/
structure Sha2 where
  w : Nat
  big0 : Nat × Nat × Nat
  big1 : Nat × Nat × Nat
  small0 : Nat × Nat × Nat
  small1 : Nat × Nat × Nat
  rounds : List Nat
  init : List Nat
  size : Nat

def Sha2.rotr (p : Sha2) (x n : Nat) : Nat := (x >>> n) ||| ((x <<< (p.w - n)) % 2 ^ p.w)

def Sha2.sum (p : Sha2) (r : Nat × Nat × Nat) (x : Nat) : Nat := p.rotr x r.1 ^^^ p.rotr x r.2.1 ^^^ p.rotr x r.2.2

def Sha2.sigma (p : Sha2) (r : Nat × Nat × Nat) (x : Nat) : Nat := p.rotr x r.1 ^^^ p.rotr x r.2.1 ^^^ (x >>> r.2.2)

def Sha2.ch (p : Sha2) (x y z : Nat) : Nat := (x &&& y) ^^^ ((2 ^ p.w - 1 - x) &&& z)

def maj (x y z : Nat) : Nat := (x &&& y) ^^^ (x &&& z) ^^^ (y &&& z)

/-- The rounds of a block. `ws` are the next sixteen words of the message schedule. -/
def Sha2.run (p : Sha2) : List Nat → List Nat → Nat → Nat → Nat → Nat → Nat → Nat → Nat → Nat → List Nat
  | k :: ks, w0 :: ws, a, b, c, d, e, f, g, h =>
    force ((h + p.sum p.big1 e + p.ch e f g + k + w0) % 2 ^ p.w) fun t1 =>
    force ((t1 + p.sum p.big0 a + maj a b c) % 2 ^ p.w) fun a' =>
    force ((d + t1) % 2 ^ p.w) fun e' =>
    force ((p.sigma p.small1 (ws.getD 13 0) + ws.getD 8 0 + p.sigma p.small0 (ws.getD 0 0) + w0) % 2 ^ p.w) fun w16 =>
    p.run ks (ws ++ [w16]) a' a b c e' e f g
  | _, _, a, b, c, d, e, f, g, h => [a, b, c, d, e, f, g, h]

/-- The next block. -/
def Sha2.block (p : Sha2) (s ws : List Nat) : List Nat :=
  match s with
  | [a, b, c, d, e, f, g, h] => List.zipWith (fun x y => force ((x + y) % 2 ^ p.w) id) s (p.run p.rounds ws a b c d e f g h)
  | _ => s

/-- Octets as a number, most significant first. -/
def number : Bytes → Nat := List.foldl (fun n b => force (256 * n + b.val) id) 0

/-- A number in `len` octets, most significant first. -/
def octetsOf : Nat → Nat → Bytes
  | 0, _ => []
  | len + 1, n => force (n / 256) fun q => octetsOf len q ++ [byte n]

/-- Pieces of `k` elements; `fuel` is at least their number. -/
def chunks {α : Type} (k : Nat) : Nat → List α → List (List α)
  | 0, _ => []
  | fuel + 1, l => if l.isEmpty then [] else l.take k :: chunks k fuel (l.drop k)

/-- The message, a bit, zeros up to the end of a block, and the length of the message in bits. -/
def Sha2.pad (p : Sha2) (m : Bytes) : Bytes :=
  m ++ [0x80] ++ List.replicate ((2 * p.w - (m.length + 1 + p.w / 4) % (2 * p.w)) % (2 * p.w)) 0 ++ octetsOf (p.w / 4) (8 * m.length)

/-- The digest. -/
def Sha2.hash (p : Sha2) (m : Bytes) : Bytes :=
  let bytes := p.pad m
  let words := (chunks (p.w / 8) bytes.length bytes).map number
  let s := (chunks 16 words.length words).foldl p.block p.init
  (s.flatMap (octetsOf (p.w / 8))).take p.size

def sha256 : Sha2 where
  w := 32
  big0 := (2, 13, 22)
  big1 := (6, 11, 25)
  small0 := (7, 18, 3)
  small1 := (17, 19, 10)
  rounds :=
   [0x428a2f98, 0x71374491, 0xb5c0fbcf, 0xe9b5dba5, 0x3956c25b, 0x59f111f1, 0x923f82a4, 0xab1c5ed5,
   0xd807aa98, 0x12835b01, 0x243185be, 0x550c7dc3, 0x72be5d74, 0x80deb1fe, 0x9bdc06a7, 0xc19bf174,
   0xe49b69c1, 0xefbe4786, 0x0fc19dc6, 0x240ca1cc, 0x2de92c6f, 0x4a7484aa, 0x5cb0a9dc, 0x76f988da,
   0x983e5152, 0xa831c66d, 0xb00327c8, 0xbf597fc7, 0xc6e00bf3, 0xd5a79147, 0x06ca6351, 0x14292967,
   0x27b70a85, 0x2e1b2138, 0x4d2c6dfc, 0x53380d13, 0x650a7354, 0x766a0abb, 0x81c2c92e, 0x92722c85,
   0xa2bfe8a1, 0xa81a664b, 0xc24b8b70, 0xc76c51a3, 0xd192e819, 0xd6990624, 0xf40e3585, 0x106aa070,
   0x19a4c116, 0x1e376c08, 0x2748774c, 0x34b0bcb5, 0x391c0cb3, 0x4ed8aa4a, 0x5b9cca4f, 0x682e6ff3,
   0x748f82ee, 0x78a5636f, 0x84c87814, 0x8cc70208, 0x90befffa, 0xa4506ceb, 0xbef9a3f7, 0xc67178f2]
  init :=
   [0x6a09e667, 0xbb67ae85, 0x3c6ef372, 0xa54ff53a, 0x510e527f, 0x9b05688c, 0x1f83d9ab, 0x5be0cd19]
  size := 32

def sha512 : Sha2 where
  w := 64
  big0 := (28, 34, 39)
  big1 := (14, 18, 41)
  small0 := (1, 8, 7)
  small1 := (19, 61, 6)
  rounds :=
   [0x428a2f98d728ae22, 0x7137449123ef65cd, 0xb5c0fbcfec4d3b2f, 0xe9b5dba58189dbbc, 0x3956c25bf348b538,
   0x59f111f1b605d019, 0x923f82a4af194f9b, 0xab1c5ed5da6d8118, 0xd807aa98a3030242, 0x12835b0145706fbe,
   0x243185be4ee4b28c, 0x550c7dc3d5ffb4e2, 0x72be5d74f27b896f, 0x80deb1fe3b1696b1, 0x9bdc06a725c71235,
   0xc19bf174cf692694, 0xe49b69c19ef14ad2, 0xefbe4786384f25e3, 0x0fc19dc68b8cd5b5, 0x240ca1cc77ac9c65,
   0x2de92c6f592b0275, 0x4a7484aa6ea6e483, 0x5cb0a9dcbd41fbd4, 0x76f988da831153b5, 0x983e5152ee66dfab,
   0xa831c66d2db43210, 0xb00327c898fb213f, 0xbf597fc7beef0ee4, 0xc6e00bf33da88fc2, 0xd5a79147930aa725,
   0x06ca6351e003826f, 0x142929670a0e6e70, 0x27b70a8546d22ffc, 0x2e1b21385c26c926, 0x4d2c6dfc5ac42aed,
   0x53380d139d95b3df, 0x650a73548baf63de, 0x766a0abb3c77b2a8, 0x81c2c92e47edaee6, 0x92722c851482353b,
   0xa2bfe8a14cf10364, 0xa81a664bbc423001, 0xc24b8b70d0f89791, 0xc76c51a30654be30, 0xd192e819d6ef5218,
   0xd69906245565a910, 0xf40e35855771202a, 0x106aa07032bbd1b8, 0x19a4c116b8d2d0c8, 0x1e376c085141ab53,
   0x2748774cdf8eeb99, 0x34b0bcb5e19b48a8, 0x391c0cb3c5c95a63, 0x4ed8aa4ae3418acb, 0x5b9cca4f7763e373,
   0x682e6ff3d6b2b8a3, 0x748f82ee5defb2fc, 0x78a5636f43172f60, 0x84c87814a1f0ab72, 0x8cc702081a6439ec,
   0x90befffa23631e28, 0xa4506cebde82bde9, 0xbef9a3f7b2c67915, 0xc67178f2e372532b, 0xca273eceea26619c,
   0xd186b8c721c0c207, 0xeada7dd6cde0eb1e, 0xf57d4f7fee6ed178, 0x06f067aa72176fba, 0x0a637dc5a2c898a6,
   0x113f9804bef90dae, 0x1b710b35131c471b, 0x28db77f523047d84, 0x32caab7b40c72493, 0x3c9ebe0a15c9bebc,
   0x431d67c49c100d4c, 0x4cc5d4becb3e42b6, 0x597f299cfc657e2a, 0x5fcb6fab3ad6faec, 0x6c44198c4a475817]
  init :=
   [0x6a09e667f3bcc908, 0xbb67ae8584caa73b, 0x3c6ef372fe94f82b, 0xa54ff53a5f1d36f1,
   0x510e527fade682d1, 0x9b05688c2b3e6c1f, 0x1f83d9abfb41bd6b, 0x5be0cd19137e2179]
  size := 64

def sha384 : Sha2 :=
  { sha512 with
    init :=
   [0xcbbb9d5dc1059ed8, 0x629a292a367cd507, 0x9159015a3070dd17, 0x152fecd8f70e5939,
   0x67332667ffc00b31, 0x8eb44a8768581511, 0xdb0c2e0d64f98fa7, 0x47b5481dbefa4fa4]
    size := 48 }

/-- The hash functions of the library. -/
def sha2 : Hash → Sha2
  | .sha256 => sha256
  | .sha384 => sha384
  | .sha512 => sha512

/-- HMAC, RFC 2104. -/
def hmac (h : Hash) (key m : Bytes) : Bytes :=
  let p := sha2 h
  let k := if key.length ≤ 2 * p.w then key else p.hash key
  let k := k ++ List.replicate (2 * p.w - k.length) 0
  p.hash (k.map (fun b => byte (b.val ^^^ 0x5c)) ++ p.hash (k.map (fun b => byte (b.val ^^^ 0x36)) ++ m))

end Psion.Real
