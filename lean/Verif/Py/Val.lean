import Verif.Py.Dict

/-!
# JSON-like Python values

The values that occur in JOSE headers, claims, keys and JSON bodies.
-/

namespace Psion

/-- A Python `float`: the bits of an IEEE 754 double. -/
abbrev F64 := Fin (2 ^ 64)

namespace F64
def sign (f : F64) : Nat := f.val / 2 ^ 63
def expo (f : F64) : Nat := f.val / 2 ^ 52 % 2048
def mant (f : F64) : Nat := f.val % 2 ^ 52
def isFinite (f : F64) : Bool := f.expo != 2047
def isNaN (f : F64) : Bool := f.expo == 2047 && f.mant != 0
def isZero (f : F64) : Bool := f.expo == 0 && f.mant == 0

/-- Significand of a finite float, as a natural number. -/
def signif (f : F64) : Nat := if f.expo = 0 then f.mant else 2 ^ 52 + f.mant

/-- `f == i` for an integer `i` (exact comparison, as in CPython). A finite float is
`± signif * 2 ^ (max expo 1 - 1075)`. -/
def eqInt (f : F64) (i : Int) : Bool :=
  f.isFinite &&
    let s : Int := if f.sign = 1 then -(f.signif : Int) else f.signif
    let e := max f.expo 1
    if 1075 ≤ e then decide (s * 2 ^ (e - 1075) = i) else decide (s = i * 2 ^ (1075 - e))

/-- `f == g`. -/
def eqF (f g : F64) : Bool :=
  !f.isNaN && !g.isNaN && (decide (f = g) || (f.isZero && g.isZero))
end F64

/-- JSON-like Python values. Dictionaries have text keys, in insertion order. -/
inductive Val
  | none
  | bool (b : Bool)
  | int (i : Int)
  | float (f : F64)
  | str (s : PyStr)
  | list (l : List Val)
  | dict (d : List (PyStr × Val))

instance : Inhabited Val := ⟨.none⟩

/-- `value is None`. -/
def Val.isNone : Val → Bool
  | .none => true
  | _ => false

/-- `bool(value)`. -/
def Val.truthy : Val → Bool
  | .none => false
  | .bool b => b
  | .int i => i != 0
  | .float f => !f.isZero
  | .str s => !s.isEmpty
  | .list l => !l.isEmpty
  | .dict d => !d.isEmpty

/-- `isinstance(value, str)`. -/
def Val.isStr : Val → Bool
  | .str _ => true
  | _ => false

/-- `int` value of a `bool` (for `True == 1`). -/
def boolInt (b : Bool) : Int := if b then 1 else 0

mutual
/-- `a == b`. -/
def Val.pyEq : Val → Val → Bool
  | .none, .none => true
  | .bool a, .bool b => a == b
  | .bool a, .int j => boolInt a == j
  | .bool a, .float g => g.eqInt (boolInt a)
  | .int i, .bool b => i == boolInt b
  | .int i, .int j => i == j
  | .int i, .float g => g.eqInt i
  | .float f, .bool b => f.eqInt (boolInt b)
  | .float f, .int j => f.eqInt j
  | .float f, .float g => f.eqF g
  | .str s, .str t => decide (s = t)
  | .list l, .list m => Val.pyEqL l m
  | .dict d, .dict e => d.length == e.length && Val.pyEqD d e
  | _, _ => false
/-- Element-wise `==` of lists. -/
def Val.pyEqL : List Val → List Val → Bool
  | [], [] => true
  | a :: l, b :: m => Val.pyEq a b && Val.pyEqL l m
  | _, _ => false
/-- Every entry of the first dictionary is in the second one with an equal value. -/
def Val.pyEqD : List (PyStr × Val) → List (PyStr × Val) → Bool
  | [], _ => true
  | (k, v) :: d, e =>
    (match Dict.get e k with
      | some w => Val.pyEq v w
      | Option.none => false) && Val.pyEqD d e
end

/-- `v in l` for a list. Every `NaN` counts as another object. -/
def Val.inList (v : Val) (l : List Val) : Bool := l.any (fun w => w.pyEq v)

/-- `d.get(k)` of a dictionary of values: a missing key reads as `None`. -/
def dget (d : Dict PyStr Val) (k : PyStr) : Val := (Dict.get d k).getD .none

end Psion
