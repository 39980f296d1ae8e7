import Verif.Spec.Ieee754

/-!
# Floats

`float(text)` and `repr(float)` of CPython, which `json.loads` and `json.dumps` call (`/repo/src/psion/webtools.py:162-192`): the first rounds
to the nearest float (`Python/dtoa.c`, `_Py_dg_strtod`), the second gives the shortest digits that are read as the same float
(`_Py_dg_dtoa`, mode 0) in the format `r` (`Python/pystrtod.c`, `format_float_short`).
-/

namespace Psion.Real

open Psion Psion.Spec

/-- `a / b` as the nearest integer, the even one of two. -/
def halfEven (a b : Nat) : Nat := if 2 * (a % b) < b then a / b else if b < 2 * (a % b) then a / b + 1 else a / b + a / b % 2

/-- The bits of the float for `num / den`. -/
def roundFloat (num den : Nat) : Nat :=
  let k := Nat.log2 (num * 2 ^ 1074 / den) - 52
  min infinity (k * 2 ^ 52 + halfEven (num * 2 ^ 1074) (den * 2 ^ k))

/-- The digits of the fraction, and what follows. -/
def readFraction : PyStr → PyStr × PyStr
  | 46 :: t => (t.takeWhile isDigit, t.dropWhile isDigit)
  | r => ([], r)

def readExponent : PyStr → Int
  | _ :: 43 :: u => natOfDigits u
  | _ :: 45 :: u => -(natOfDigits u : Int)
  | _ :: u => natOfDigits u
  | [] => 0

/-- Numerator and denominator of the text without sign. -/
def readDecimal (s : PyStr) : Nat × Nat :=
  let ip := s.takeWhile isDigit
  let f := readFraction (s.dropWhile isDigit)
  let x := readExponent f.2
  (natOfDigits (ip ++ f.1) * 10 ^ x.toNat, 10 ^ (f.1.length + (-x).toNat))

def parseFloat (s : PyStr) : F64 :=
  let neg := s.head? = some 45
  let (num, den) := readDecimal (if neg then s.drop 1 else s)
  ⟨(if neg then 2 ^ 63 else 0) + roundFloat num den % 2 ^ 63, by split <;> omega⟩

/-- With the power `j` of ten above the number: the nearest digits of `k` ones that are read as the float. The decimal numbers here are
`digits * 10 ^ p / 10 ^ 400`. -/
def tryDigits (c j k : Nat) : Option (Nat × Nat) :=
  let p := j - k
  let step := 2 ^ 1074 * 10 ^ p
  let lo := 10 ^ 400 * units c / step
  let r := 10 ^ 400 * units c % step
  let a := roundFloat (lo * 10 ^ p) (10 ^ 400) = c
  let b := roundFloat ((lo + 1) * 10 ^ p) (10 ^ 400) = c
  if a ∧ (¬ b ∨ 2 * r < step ∨ 2 * r = step ∧ lo % 2 = 0) then some (lo, p) else if b then some (lo + 1, p) else none

/-- The first power of ten above the number. -/
def powerOf (c : Nat) : Nat := ((List.range 800).find? (fun j => 10 ^ 400 * units c < 2 ^ 1074 * 10 ^ j)).getD 0

/-- Without zeros at the end. -/
def stripZeros : Nat → Nat × Nat → Nat × Nat
  | 0, d => d
  | n + 1, (d, p) => if d % 10 = 0 then stripZeros n (d / 10, p + 1) else (d, p)

/-- The first value from `k` on. -/
def firstSome (g : Nat → Option (Nat × Nat)) : Nat → Nat → Nat × Nat
  | 0, _ => (0, 0)
  | n + 1, k =>
    match g k with
    | some d => d
    | none => firstSome g n (k + 1)

def shortest (c : Nat) : Nat × Nat := stripZeros 17 (firstSome (tryDigits c (powerOf c)) 17 1)

/-- The digits in the format `r`. -/
def formatRepr (ds : PyStr) (point : Int) : PyStr :=
  if -4 < point ∧ point ≤ 16 then
    if point ≤ 0 then py! "0." ++ List.replicate (-point).toNat 48 ++ ds
    else if (ds.length : Int) ≤ point then ds ++ List.replicate (point.toNat - ds.length) 48 ++ py! ".0"
    else ds.take point.toNat ++ py! "." ++ ds.drop point.toNat
  else
    let es := natStr (point - 1).natAbs
    ds.take 1 ++ (if ds.length = 1 then [] else 46 :: ds.drop 1) ++ py! "e" ++ (if point ≤ 0 then [45] else [43]) ++
      (if es.length = 1 then 48 :: es else es)

def reprFloat (f : F64) : PyStr :=
  (if f.sign = 1 then [45] else []) ++
    if magnitude f = 0 then py! "0.0"
    else
      let (d, p) := shortest (magnitude f)
      formatRepr (natStr d) ((natStr d).length + (p : Int) - 400)

def floats : FloatEnv where
  repr := reprFloat
  parse := parseFloat

end Psion.Real
