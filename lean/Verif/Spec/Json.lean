import Verif.Py.Json

/-!
# Vocabulary for JSON texts

The grammar of RFC 8259 with the additions of CPython's `json` (`NaN`, `Infinity`, `-Infinity`; lone surrogates in `\u` escapes),
written as relations between a value and its texts. Characters are code points: 9, 10, 13 and 32 are whitespace, 34 is `"`, 44 `,`,
45 `-`, 46 `.`, 48-57 the digits, 58 `:`, 91 `[`, 92 the backslash, 93 `]`, 117 `u`, 123 `{`, 125 `}`.
-/

namespace Psion.Spec

/-- Whitespace: space, tab, newline, carriage return. -/
def White (w : PyStr) : Prop := ∀ c ∈ w, c = 32 ∨ c = 9 ∨ c = 10 ∨ c = 13

/-- A hexadecimal digit and its value. -/
def HexDigit (c d : Nat) : Prop := (d < 10 ∧ c = 48 + d) ∨ (10 ≤ d ∧ d < 16 ∧ (c = 55 + d ∨ c = 87 + d))

/-- The text `\uXXXX` of a code unit. -/
def UnitEscape (p : PyStr) (u : Nat) : Prop :=
  ∃ a b c d w x y z, p = [92, 117, a, b, c, d] ∧ HexDigit a w ∧ HexDigit b x ∧ HexDigit c y ∧ HexDigit d z ∧
    u = ((w * 16 + x) * 16 + y) * 16 + z

def High (u : Nat) : Prop := 0xD800 ≤ u ∧ u ≤ 0xDBFF
def Low (u : Nat) : Prop := 0xDC00 ≤ u ∧ u ≤ 0xDFFF

/-- The escapes of one letter: `\"`, `\\`, `\/`, `\b`, `\f`, `\n`, `\r`, `\t`. -/
def shortEscapes : List (Nat × Nat) := [(34, 34), (92, 92), (47, 47), (98, 8), (102, 12), (110, 10), (114, 13), (116, 9)]

/-- The characters between the quotes, and the text they stand for. -/
inductive Chars : PyStr → PyStr → Prop
  | nil : Chars [] []
  | plain {c : Nat} {p v : PyStr} : 32 ≤ c → c ≠ 34 → c ≠ 92 → Chars p v → Chars (c :: p) (c :: v)
  | short {e x : Nat} {p v : PyStr} : (e, x) ∈ shortEscapes → Chars p v → Chars (92 :: e :: p) (x :: v)
  | pair {e f : PyStr} {hi lo : Nat} {p v : PyStr} : UnitEscape e hi → UnitEscape f lo → High hi → Low lo → Chars p v →
      Chars (e ++ (f ++ p)) ((0x10000 + (hi - 0xD800) * 1024 + (lo - 0xDC00)) :: v)
  /-- Any other code unit stands for itself. -/
  | unit {e : PyStr} {u : Nat} {p v : PyStr} : UnitEscape e u →
      (High u → ¬ ∃ f lo t, p = f ++ t ∧ UnitEscape f lo ∧ Low lo) → Chars p v → Chars (e ++ p) (u :: v)

/-- A sequence of at least one digit. -/
def Digits (ds : PyStr) : Prop := ds ≠ [] ∧ ∀ d ∈ ds, 48 ≤ d ∧ d ≤ 57

/-- The number that a sequence of digits denotes. -/
def decimal : PyStr → Nat
  | [] => 0
  | d :: ds => (d - 48) * 10 ^ ds.length + decimal ds

/-- Integer part: no leading zero. -/
def IntText (ip : PyStr) : Prop := Digits ip ∧ (ip.head? = some 48 → ip = [48])

/-- Fraction, possibly absent. -/
def FracText (fp : PyStr) : Prop := fp = [] ∨ ∃ ds, Digits ds ∧ fp = 46 :: ds

/-- Exponent, possibly absent. -/
def ExpText (ep : PyStr) : Prop :=
  ep = [] ∨ ∃ e sign ds, (e = 101 ∨ e = 69) ∧ (sign = [] ∨ sign = [43] ∨ sign = [45]) ∧ Digits ds ∧ ep = e :: (sign ++ ds)

def minus (neg : Bool) : PyStr := if neg then [45] else []

mutual
/-- A value and a text for it, without surrounding whitespace. -/
inductive JsonValue (fe : FloatEnv) : Val → PyStr → Prop
  | null : JsonValue fe .none (py! "null")
  | true_ : JsonValue fe (.bool true) (py! "true")
  | false_ : JsonValue fe (.bool false) (py! "false")
  | nan : JsonValue fe (.float f64NaN) (py! "NaN")
  | inf : JsonValue fe (.float f64Inf) (py! "Infinity")
  | negInf : JsonValue fe (.float f64NegInf) (py! "-Infinity")
  | int (neg : Bool) {ip : PyStr} : IntText ip →
      JsonValue fe (.int (if neg then -(decimal ip : Int) else decimal ip)) (minus neg ++ ip)
  | float (neg : Bool) {ip fp ep : PyStr} : IntText ip → FracText fp → ExpText ep → fp ++ ep ≠ [] →
      JsonValue fe (.float (fe.parse (minus neg ++ ip ++ fp ++ ep))) (minus neg ++ ip ++ fp ++ ep)
  | str {p v : PyStr} : Chars p v → JsonValue fe (.str v) (34 :: (p ++ [34]))
  | emptyList {w : PyStr} : White w → JsonValue fe (.list []) (91 :: (w ++ [93]))
  | list {p : PyStr} {l : List Val} : JsonElems fe l p → JsonValue fe (.list l) (91 :: (p ++ [93]))
  | emptyDict {w : PyStr} : White w → JsonValue fe (.dict []) (123 :: (w ++ [125]))
  /-- The members are assigned one after the other, so the last one of several with the same name counts. -/
  | dict {p : PyStr} {kvs : List (PyStr × Val)} : JsonMembers fe kvs p →
      JsonValue fe (.dict (kvs.foldl (fun d kv => Dict.set d kv.1 kv.2) [])) (123 :: (p ++ [125]))
/-- Elements separated by commas, whitespace around each. -/
inductive JsonElems (fe : FloatEnv) : List Val → PyStr → Prop
  | one {w w' p : PyStr} {v : Val} : White w → JsonValue fe v p → White w' → JsonElems fe [v] (w ++ (p ++ w'))
  | more {w w' p q : PyStr} {v : Val} {l : List Val} : White w → JsonValue fe v p → White w' → JsonElems fe l q →
      JsonElems fe (v :: l) (w ++ (p ++ (w' ++ 44 :: q)))
/-- Members separated by commas, whitespace around each name and each value. -/
inductive JsonMembers (fe : FloatEnv) : List (PyStr × Val) → PyStr → Prop
  | one {w1 w2 w3 w4 n k p : PyStr} {v : Val} : White w1 → Chars n k → White w2 → White w3 → JsonValue fe v p → White w4 →
      JsonMembers fe [(k, v)] (w1 ++ 34 :: (n ++ 34 :: (w2 ++ 58 :: (w3 ++ (p ++ w4)))))
  | more {w1 w2 w3 w4 n k p q : PyStr} {v : Val} {kvs : List (PyStr × Val)} : White w1 → Chars n k → White w2 → White w3 →
      JsonValue fe v p → White w4 → JsonMembers fe kvs q →
      JsonMembers fe ((k, v) :: kvs) (w1 ++ 34 :: (n ++ 34 :: (w2 ++ 58 :: (w3 ++ (p ++ (w4 ++ 44 :: q))))))
end

/-- A JSON text: a value with whitespace around it. -/
def JsonText (fe : FloatEnv) (v : Val) (s : PyStr) : Prop :=
  ∃ w p w', s = w ++ (p ++ w') ∧ White w ∧ JsonValue fe v p ∧ White w'

end Psion.Spec
