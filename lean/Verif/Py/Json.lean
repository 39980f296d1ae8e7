import Verif.Py.Val
import Verif.Py.Utf8

/-!
# JSON

`json.dumps(data, ensure_ascii=False)` and `json.loads(text)` of CPython (the C accelerated
scanner), and `json_dumps` / `json_loads` of `/repo/src/psion/webtools.py:162-192`.
Recursion limits and the limit on the number of digits of an `int` are not modelled.
-/

namespace Psion

/-- The conversions between floats and their decimal texts are external. -/
structure FloatEnv where
  /-- `float.__repr__` of a finite float. -/
  repr : F64 → PyStr
  /-- `float(token)` for a JSON number token. -/
  parse : PyStr → F64

/-- Lower case hexadecimal digit. -/
def hexLow (n : Nat) : Nat := if n < 10 then 48 + n else 87 + n

/-- Escape of one character in `json.encoder.py_encode_basestring`. -/
def jsonEscape (c : Nat) : PyStr :=
  if c = 34 then [92, 34]
  else if c = 92 then [92, 92]
  else if c = 8 then [92, 98]
  else if c = 12 then [92, 102]
  else if c = 10 then [92, 110]
  else if c = 13 then [92, 114]
  else if c = 9 then [92, 116]
  else if c < 32 then [92, 117, 48, 48, hexLow (c / 16), hexLow (c % 16)]
  else [c]

/-- A JSON text literal. -/
def jsonStr (s : PyStr) : PyStr := 34 :: (s.flatMap jsonEscape ++ [34])

/-- Decimal digits of `n`, `str(n)`; `fuel ≥ n` is always enough. -/
def digitsAux : Nat → Nat → PyStr
  | 0, n => [48 + n]
  | fuel + 1, n => if n < 10 then [48 + n] else digitsAux fuel (n / 10) ++ [48 + n % 10]

/-- `str(n)` of a natural number. -/
def natStr (n : Nat) : PyStr := digitsAux n n

/-- `str(i)` of an integer. -/
def intStr (i : Int) : PyStr := if i < 0 then 45 :: natStr i.natAbs else natStr i.natAbs

/-- A float in `json.dumps`. -/
def floatStr (fe : FloatEnv) (f : F64) : PyStr :=
  if f.isNaN then py! "NaN"
  else if f.isFinite then fe.repr f
  else if f.sign = 1 then py! "-Infinity" else py! "Infinity"

mutual
/-- `json.dumps(v, ensure_ascii=False)`; the separators are `", "` and `": "`. -/
def jsonPrint (fe : FloatEnv) : Val → PyStr
  | .none => py! "null"
  | .bool true => py! "true"
  | .bool false => py! "false"
  | .int i => intStr i
  | .float f => floatStr fe f
  | .str s => jsonStr s
  | .list [] => py! "[]"
  | .list (v :: l) => 91 :: (jsonPrint fe v ++ jsonPrintL fe l)
  | .dict [] => py! "{}"
  | .dict ((k, v) :: d) => 123 :: (jsonStr k ++ 58 :: 32 :: (jsonPrint fe v ++ jsonPrintD fe d))
/-- Remaining elements of a list and the closing bracket. -/
def jsonPrintL (fe : FloatEnv) : List Val → PyStr
  | [] => [93]
  | v :: l => 44 :: 32 :: (jsonPrint fe v ++ jsonPrintL fe l)
/-- Remaining members of a dictionary and the closing brace. -/
def jsonPrintD (fe : FloatEnv) : List (PyStr × Val) → PyStr
  | [] => [125]
  | (k, v) :: d => 44 :: 32 :: (jsonStr k ++ 58 :: 32 :: (jsonPrint fe v ++ jsonPrintD fe d))
end

/-- JSON whitespace: space, tab, newline, carriage return. -/
def isJsonWs (c : Nat) : Bool := c == 32 || c == 9 || c == 10 || c == 13

/-- Skips JSON whitespace. -/
def skipWs (s : PyStr) : PyStr := s.dropWhile isJsonWs

def isDigit (c : Nat) : Bool := 48 ≤ c && c ≤ 57

/-- Value of a hexadecimal digit (either case) in a `\u` escape. -/
def jhex (n : Nat) : Option Nat :=
  if 48 ≤ n ∧ n ≤ 57 then some (n - 48)
  else if 65 ≤ n ∧ n ≤ 70 then some (n - 55)
  else if 97 ≤ n ∧ n ≤ 102 then some (n - 87)
  else none

/-- Four hexadecimal digits at the front of the text. -/
def hex4 : PyStr → Option (Nat × PyStr)
  | a :: b :: c :: d :: s =>
    match jhex a, jhex b, jhex c, jhex d with
    | some w, some x, some y, some z => some (w * 4096 + x * 256 + y * 16 + z, s)
    | _, _, _, _ => none
  | _ => none

/-- The characters for the one letter escapes. -/
def simpleEscape (c : Nat) : Option Nat :=
  if c = 34 then some 34 else if c = 92 then some 92 else if c = 47 then some 47
  else if c = 98 then some 8 else if c = 102 then some 12 else if c = 110 then some 10
  else if c = 114 then some 13 else if c = 116 then some 9 else none

/-- `scanstring_unicode` (strict): text after the opening quote. Control characters, unknown
escapes and an unterminated text are errors (`none`). A high surrogate escape followed by a low surrogate
escape is joined. -/
def scanString : Nat → PyStr → Option (PyStr × PyStr)
  | 0, _ => none
  | _ + 1, [] => none
  | n + 1, c :: s =>
    if c = 34 then some ([], s)
    else if c = 92 then
      match s with
      | [] => none
      | e :: t =>
        if e = 117 then
          match hex4 t with
          | none => none
          | some (u, r) =>
            if 0xD800 ≤ u ∧ u < 0xDC00 then
              match r with
              | 92 :: 117 :: r' =>
                match hex4 r' with
                | some (v, r'') =>
                  if 0xDC00 ≤ v ∧ v < 0xE000 then
                    (scanString n r'').map
                      (fun p => ((0x10000 + (u - 0xD800) * 1024 + (v - 0xDC00)) :: p.1, p.2))
                  else (scanString n r).map (fun p => (u :: p.1, p.2))
                | none => (scanString n r).map (fun p => (u :: p.1, p.2))
              | _ => (scanString n r).map (fun p => (u :: p.1, p.2))
            else (scanString n r).map (fun p => (u :: p.1, p.2))
        else
          match simpleEscape e with
          | none => none
          | some x => (scanString n t).map (fun p => (x :: p.1, p.2))
    else if c < 32 then none
    else (scanString n s).map (fun p => (c :: p.1, p.2))

/-- Value of a sequence of decimal digits. -/
def natOfDigits (ds : PyStr) : Nat := ds.foldl (fun acc d => acc * 10 + (d - 48)) 0

/-- Fraction part: `.` followed by at least one digit. Returns the consumed text. -/
def scanFrac (s : PyStr) : PyStr × PyStr :=
  match s with
  | 46 :: d :: t =>
    if isDigit d then (46 :: d :: t.takeWhile isDigit, t.dropWhile isDigit) else ([], s)
  | _ => ([], s)

/-- Exponent part, or nothing if it is incomplete. Returns the consumed text. -/
def scanExp (s : PyStr) : PyStr × PyStr :=
  match s with
  | e :: t =>
    if e = 101 ∨ e = 69 then
      match t with
      | g :: u =>
        if g = 43 ∨ g = 45 then
          if u.takeWhile isDigit = [] then ([], s)
          else (e :: g :: u.takeWhile isDigit, u.dropWhile isDigit)
        else if t.takeWhile isDigit = [] then ([], s)
        else (e :: t.takeWhile isDigit, t.dropWhile isDigit)
      | [] => ([], s)
    else ([], s)
  | [] => ([], s)

/-- Integer part: `0` or a non-zero digit followed by digits. -/
def scanIntPart (s : PyStr) : Option (PyStr × PyStr) :=
  match s with
  | d :: t =>
    if d = 48 then some ([48], t)
    else if isDigit d then some (d :: t.takeWhile isDigit, t.dropWhile isDigit)
    else none
  | [] => none

/-- `_match_number_unicode`: a number at the front of the text (after the optional minus sign). -/
def scanNumber (fe : FloatEnv) (neg : Bool) (s : PyStr) : Option (Val × PyStr) :=
  match scanIntPart s with
  | none => none
  | some (ip, r) =>
    let (fp, r1) := scanFrac r
    let (ep, r2) := scanExp r1
    if fp = [] ∧ ep = [] then
      some (.int (if neg then -(natOfDigits ip : Int) else natOfDigits ip), r2)
    else some (.float (fe.parse ((if neg then [45] else []) ++ ip ++ fp ++ ep)), r2)

/-- The float `NaN` (CPython's `float("nan")`). -/
def f64NaN : F64 := ⟨0x7FF8000000000000, by decide⟩
/-- The float `inf`. -/
def f64Inf : F64 := ⟨0x7FF0000000000000, by decide⟩
/-- The float `-inf`. -/
def f64NegInf : F64 := ⟨0xFFF0000000000000, by decide⟩

/-- Removes a literal from the front of the text. -/
def stripLit (lit : PyStr) (s : PyStr) : Option PyStr :=
  if s.take lit.length = lit then some (s.drop lit.length) else none

/-- A value that starts with a letter, a digit or a minus sign. -/
def scanAtom (fe : FloatEnv) (s : PyStr) : Option (Val × PyStr) :=
  match stripLit (py! "null") s with
  | some r => some (.none, r)
  | none =>
  match stripLit (py! "true") s with
  | some r => some (.bool true, r)
  | none =>
  match stripLit (py! "false") s with
  | some r => some (.bool false, r)
  | none =>
  match stripLit (py! "NaN") s with
  | some r => some (.float f64NaN, r)
  | none =>
  match stripLit (py! "Infinity") s with
  | some r => some (.float f64Inf, r)
  | none =>
  match stripLit (py! "-Infinity") s with
  | some r => some (.float f64NegInf, r)
  | none =>
  match s with
  | 45 :: t => scanNumber fe true t
  | _ => scanNumber fe false s

mutual
/-- `scan_once`: one value at the front of the text (leading whitespace already skipped).
`none` stands for `JSONDecodeError`. `fuel` bounds the recursion; more fuel than characters never
changes the result. -/
def scanOnce (fe : FloatEnv) : Nat → PyStr → Option (Val × PyStr)
  | 0, _ => none
  | _ + 1, [] => none
  | n + 1, c :: s =>
    if c = 34 then (scanString (n + 1) s).map (fun p => (.str p.1, p.2))
    else if c = 123 then
      match skipWs s with
      | 125 :: r => some (.dict [], r)
      | r => (scanMembers fe n [] r).map (fun p => (.dict p.1, p.2))
    else if c = 91 then
      match skipWs s with
      | 93 :: r => some (.list [], r)
      | r => (scanElems fe n [] r).map (fun p => (.list p.1, p.2))
    else scanAtom fe (c :: s)
/-- Members of an object up to the closing brace (`_parse_object_unicode`); `acc` is the
dictionary built so far, a repeated key overrides the value. -/
def scanMembers (fe : FloatEnv) : Nat → Dict PyStr Val → PyStr → Option (Dict PyStr Val × PyStr)
  | 0, _, _ => none
  | n + 1, acc, s =>
    match s with
    | 34 :: s1 =>
      match scanString (n + 1) s1 with
      | none => none
      | some (k, s2) =>
        match skipWs s2 with
        | 58 :: s3 =>
          match scanOnce fe n (skipWs s3) with
          | none => none
          | some (v, s4) =>
            match skipWs s4 with
            | 125 :: r => some (Dict.set acc k v, r)
            | 44 :: r => scanMembers fe n (Dict.set acc k v) (skipWs r)
            | _ => none
        | _ => none
    | _ => none
/-- Elements of an array up to the closing bracket (`_parse_array_unicode`). -/
def scanElems (fe : FloatEnv) : Nat → List Val → PyStr → Option (List Val × PyStr)
  | 0, _, _ => none
  | n + 1, acc, s =>
    match scanOnce fe n s with
    | none => none
    | some (v, s1) =>
      match skipWs s1 with
      | 93 :: r => some (acc ++ [v], r)
      | 44 :: r => scanElems fe n (acc ++ [v]) (skipWs r)
      | _ => none
end

/-- `json.loads(text)`: a leading byte order mark is an error, as is text after the value. -/
def jsonParse (fe : FloatEnv) (s : PyStr) : Res Val :=
  if s.head? = some 0xFEFF then .error .jsonDecode
  else
    match scanOnce fe (s.length + 1) (skipWs s) with
    | none => .error .jsonDecode
    | some (v, r) => if skipWs r = [] then .ok v else .error .jsonDecode

/-- `json_dumps`, `/repo/src/psion/webtools.py:162-173`. -/
def jsonDumps (fe : FloatEnv) (v : Val) : PyStr := jsonPrint fe v

/-- `json_loads` on `bytes`, `/repo/src/psion/webtools.py:176-192`. -/
def jsonLoads (fe : FloatEnv) (b : Bytes) : Res Val := jsonParse fe (toStringB b)

end Psion
