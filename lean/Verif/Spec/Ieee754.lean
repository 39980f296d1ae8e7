import Verif.Spec.Json

/-!
# Numbers with fractions: IEEE 754-2008 and RFC 8259, section 6
-/

namespace Psion.Spec

open Psion

/-! ## Binary64 -/

/-- The number that the bits of a float without the sign stand for, in multiples of `2 ^ -1074` (section 3.4). The bits of infinity come
after those of the largest number, and are counted here as `2 ^ 1024` (section 4.3.1). -/
def units (c : Nat) : Nat := (if c / 2 ^ 52 = 0 then c % 2 ^ 52 else 2 ^ 52 + c % 2 ^ 52) * 2 ^ (c / 2 ^ 52 - 1)

def infinity : Nat := 2047 * 2 ^ 52

def apart (a b : Nat) : Nat := (a - b) + (b - a)

/-- `roundTiesToEven` (section 4.3.1): of all floats `c` is the nearest to `num / den`, and even if another one is as near. -/
def Nearest (num den c : Nat) : Prop :=
  c ≤ infinity ∧ ∀ c' ≤ infinity, c' ≠ c →
    apart (num * 2 ^ 1074) (den * units c) < apart (num * 2 ^ 1074) (den * units c') ∨
      apart (num * 2 ^ 1074) (den * units c) = apart (num * 2 ^ 1074) (den * units c') ∧ c % 2 = 0

/-- The bits of a float without the sign. -/
def magnitude (f : F64) : Nat := f.val % 2 ^ 63

/-! ## Texts -/

/-- A fraction, possibly absent, and its digits. -/
def Fraction (fp ds : PyStr) : Prop := fp = [] ∧ ds = [] ∨ Digits ds ∧ fp = 46 :: ds

/-- An exponent, possibly absent. -/
def Exponent (ep : PyStr) (x : Int) : Prop :=
  ep = [] ∧ x = 0 ∨ ∃ e sign ds, (e = 101 ∨ e = 69) ∧ Digits ds ∧ ep = e :: (sign ++ ds) ∧
    ((sign = [] ∨ sign = [43]) ∧ x = decimal ds ∨ sign = [45] ∧ x = -(decimal ds : Int))

/-- The text of a number, its sign, and its absolute value `num / den`. -/
def Literal (text : PyStr) (neg : Bool) (num den : Nat) : Prop :=
  ∃ ip fp ep ds x, IntText ip ∧ Fraction fp ds ∧ Exponent ep x ∧ text = minus neg ++ ip ++ fp ++ ep ∧
    num = decimal (ip ++ ds) * 10 ^ x.toNat ∧ den = 10 ^ (ds.length + (-x).toNat)

/-- `digits * 10 ^ x` as a fraction. -/
def Decimal (digits : Nat) (x : Int) (num den : Nat) : Prop := num = digits * 10 ^ x.toNat ∧ den = 10 ^ (-x).toNat

/-- Of all decimal numbers that are rounded to the float, none has less digits than `digits * 10 ^ x`, and none with as many digits is nearer
to it; if another one is as near, the digits are even. -/
def Shortest (c digits : Nat) (x : Int) : Prop :=
  ∃ num den, Decimal digits x num den ∧ Nearest num den c ∧
    ∀ digits' x' num' den', Decimal digits' x' num' den' → Nearest num' den' c → ∀ k, digits' < 10 ^ k → digits < 10 ^ k ∧
      (10 ^ k ≤ 10 * digits → den' * apart (num * 2 ^ 1074) (den * units c) < den * apart (num' * 2 ^ 1074) (den' * units c) ∨
        den' * apart (num * 2 ^ 1074) (den * units c) = den * apart (num' * 2 ^ 1074) (den' * units c) ∧
          (num' * den = num * den' ∨ digits % 2 = 0))

/-- `repr` of the number with these digits, of which `point` are in front of the decimal point: from `0.0001` on and below
`10000000000000000` the digits with a point, otherwise with an exponent of at least two digits. -/
inductive ReprText (ds : PyStr) (point : Int) : PyStr → Prop
  | small (h : -4 < point) (h' : point ≤ 0) : ReprText ds point (py! "0." ++ List.replicate (-point).toNat 48 ++ ds)
  | middle (front back : PyStr) (h : ds = front ++ back) (hl : (front.length : Int) = point) (hf : front ≠ []) (hb : back ≠ [])
      (h' : point ≤ 16) : ReprText ds point (front ++ py! "." ++ back)
  | large (h : (ds.length : Int) ≤ point) (h' : point ≤ 16) :
      ReprText ds point (ds ++ List.replicate (point.toNat - ds.length) 48 ++ py! ".0")
  | exponent (d : Nat) (rest frac sign es : PyStr) (h : point ≤ -4 ∨ 16 < point) (hd : ds = d :: rest)
      (hf : rest = [] ∧ frac = [] ∨ rest ≠ [] ∧ frac = 46 :: rest) (hs : sign = if point ≤ 0 then [45] else [43])
      (he : Digits es) (hx : decimal es = (point - 1).natAbs) (h2 : 2 ≤ es.length) (hm : es.head? = some 48 → es.length = 2) :
      ReprText ds point (d :: (frac ++ py! "e" ++ sign ++ es))

end Psion.Spec
