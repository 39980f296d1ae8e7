import Verif.Py.Utf8
import Verif.Py.FullDict

/-!
# URL encoding

The functions of `urllib.parse` used by the library and `urlencode` / `urldecode` of
`/repo/src/psion/webtools.py:210-236`.
-/

namespace Psion

/-- `s.split(sep)` for a one-element separator; never empty. -/
def splitOn {α : Type} [DecidableEq α] (sep : α) : List α → List (List α)
  | [] => [[]]
  | c :: s =>
    if c = sep then [] :: splitOn sep s
    else
      match splitOn sep s with
      | [] => [[c]]
      | p :: ps => (c :: p) :: ps

/-- `s.split(sep, 1)` when `sep` occurs; `none` otherwise. -/
def splitOnce {α : Type} [DecidableEq α] (sep : α) : List α → Option (List α × List α)
  | [] => none
  | c :: s =>
    if c = sep then some ([], s)
    else (splitOnce sep s).map (fun p => (c :: p.1, p.2))

/-- `sep.join(parts)`. -/
def joinWith {α : Type} (sep : List α) : List (List α) → List α
  | [] => []
  | [p] => p
  | p :: q :: ps => p ++ sep ++ joinWith sep (q :: ps)

/-- `urllib.parse._ALWAYS_SAFE`: `A-Z a-z 0-9 _ . - ~`. -/
def alwaysSafe (n : Nat) : Bool :=
  (65 ≤ n && n ≤ 90) || (97 ≤ n && n ≤ 122) || (48 ≤ n && n ≤ 57) ||
    n == 95 || n == 46 || n == 45 || n == 126

/-- Upper case hexadecimal digit. -/
def hexUp (n : Nat) : Nat := if n < 10 then 48 + n else 55 + n

/-- `Quoter.__missing__` combined with the replacement of the space by `+` done by `quote_plus`. -/
def quoteByte (safe : Nat → Bool) (b : Byte) : PyStr :=
  if b.val = 32 then [43]
  else if alwaysSafe b.val || safe b.val then [b.val]
  else [37, hexUp (b.val / 16), hexUp (b.val % 16)]

/-- `quote_plus(s, safe)`; `safe` never contains the space. -/
def quotePlus (safe : Nat → Bool) (s : PyStr) : Res PyStr :=
  match utf8Encode s with
  | .error e => .error e
  | .ok b => .ok (b.flatMap (quoteByte safe))

/-- No additional safe characters (the default of `urllib.parse.urlencode`). -/
def noSafe (_ : Nat) : Bool := false

/-- `:/%#?&=@[]!$&'()*+,;`, the characters left alone in a Location header,
`/repo/src/psion/oauth2/models/http.py:194`. -/
def locSafe (n : Nat) : Bool :=
  (py! ":/%#?&=@[]!$&'()*+,;").contains n

/-- Value of a hexadecimal digit (either case). -/
def hexVal (n : Nat) : Option Nat :=
  if 48 ≤ n ∧ n ≤ 57 then some (n - 48)
  else if 65 ≤ n ∧ n ≤ 70 then some (n - 55)
  else if 97 ≤ n ∧ n ≤ 102 then some (n - 87)
  else none

/-- `unquote_to_bytes` on an ASCII text. -/
def unquoteBytes : PyStr → Bytes
  | [] => []
  | c :: s =>
    if c = 37 then
      match s with
      | a :: b :: t =>
        match hexVal a, hexVal b with
        | some x, some y => byte (x * 16 + y) :: unquoteBytes t
        | _, _ => byte c :: unquoteBytes (a :: b :: t)
      | [a] => [byte c, byte a]
      | [] => [byte c]
    else byte c :: unquoteBytes s
termination_by s => s.length

/-- The loop of `urllib.parse.unquote`: maximal ASCII runs (collected in `run`) are
percent-decoded and then decoded with `errors="replace"`; other characters are copied. -/
def unquoteLoop (run : PyStr) : PyStr → PyStr
  | [] => utf8DecodeReplace (unquoteBytes run)
  | c :: s =>
    if c < 128 then unquoteLoop (run ++ [c]) s
    else utf8DecodeReplace (unquoteBytes run) ++ c :: unquoteLoop [] s

/-- `urllib.parse.unquote`. -/
def unquote (s : PyStr) : PyStr := unquoteLoop [] s

/-- `unquote(s.replace("+", " "))`. -/
def unquotePlus (s : PyStr) : PyStr := unquote (s.map (fun c => if c = 43 then 32 else c))

/-- One `name=value` piece of a query string in `parse_qsl` with the default arguments. -/
def parsePair (nv : PyStr) : Option (PyStr × PyStr) :=
  match splitOnce 61 nv with
  | none => none
  | some (n, v) => if v = [] then none else some (unquotePlus n, unquotePlus v)

/-- `urllib.parse.parse_qsl(qs)` (Python ≥ 3.9.2: the only separator is `&`). -/
def parseQsl (qs : PyStr) : List (PyStr × PyStr) := (splitOn 38 qs).filterMap parsePair

/-- `urldecode`, `/repo/src/psion/webtools.py:225-236`. -/
def urldecode (qs : PyStr) : Dict PyStr PyStr := Dict.ofPairs (parseQsl qs)

/-- `urllib.parse.urlencode` on a dictionary of texts. -/
def urlencodePairs : Dict PyStr PyStr → Res (List PyStr)
  | [] => .ok []
  | (k, v) :: d =>
    match quotePlus noSafe k with
    | .error e => .error e
    | .ok k' =>
      match quotePlus noSafe v with
      | .error e => .error e
      | .ok v' =>
        match urlencodePairs d with
        | .error e => .error e
        | .ok r => .ok ((k' ++ 61 :: v') :: r)

/-- `{k: v}` without the `None` entries, values unwrapped (`FullDict(params)`). -/
def someEntries (d : NDict PyStr PyStr) : Dict PyStr PyStr :=
  d.filterMap (fun kv => kv.2.map (fun v => (kv.1, v)))

/-- `urlencode(url, **params)`, `/repo/src/psion/webtools.py:210-222`. Parameter values are texts
or `None` (the library only passes texts). -/
def urlencode (url : PyStr) (params : NDict PyStr PyStr) : Res PyStr :=
  match urlencodePairs (someEntries (FullDict.init params [])) with
  | .error e => .error e
  | .ok ps => .ok (url ++ 63 :: joinWith [38] ps)

/-- Characters removed by `urllib.parse.urlsplit` before splitting (tab, newline, carriage
return). -/
def dropUnsafe (s : PyStr) : PyStr := s.filter (fun c => !(c == 9 || c == 10 || c == 13))

/-- `urlparse(url).query`: what is between the first `?` and the first `#`, if `urlparse` does not raise. -/
def urlQuery (url : PyStr) : PyStr :=
  let u := dropUnsafe url
  let u := match splitOnce 35 u with | some (a, _) => a | none => u
  match splitOnce 63 u with | some (_, q) => q | none => []

/-- `urllib.parse.scheme_chars`: `A-Z a-z 0-9 + - .`. -/
def schemeChar (n : Nat) : Bool :=
  (65 ≤ n && n ≤ 90) || (97 ≤ n && n ≤ 122) || (48 ≤ n && n ≤ 57) || n == 43 || n == 45 || n == 46

/-- The host part of `urlsplit(url)` (`netloc`), empty without `//`. -/
def urlNetloc (url : PyStr) : PyStr :=
  let u := dropUnsafe url
  let u := match splitOnce 58 u with | some (s, r) => if s ≠ [] ∧ s.all schemeChar then r else u | none => u
  match u with
  | 47 :: 47 :: t => t.takeWhile (fun c => !(c == 47 || c == 63 || c == 35))
  | _ => []

/-- `urlparse(url)` raises `ValueError`: one of the brackets of an IPv6 address occurs in the host part without the other. As in
CPython 3.9. Later versions also look at what is between the brackets, and all versions refuse some hosts with characters outside
Latin-1, which do not occur in HTTP; this is not modelled. -/
def urlRefused (url : PyStr) : Bool := (urlNetloc url).contains 91 != (urlNetloc url).contains 93

end Psion
