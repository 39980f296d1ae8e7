import Verif.Py.Base64

/-!
# UTF-8

`str.encode("utf-8")`, `bytes.decode("utf-8")` (strict and `errors="replace"`) of CPython and
`to_bytes` / `to_string` of `/repo/src/psion/webtools.py:32-81`.
-/

namespace Psion

/-- The code point can be encoded: it is a Unicode scalar value. -/
def scalar (n : Nat) : Bool := n < 0xD800 || (0xE000 ≤ n && n < 0x110000)

/-- UTF-8 encoding of one code point; a surrogate raises `UnicodeEncodeError`.
(Values `≥ 0x110000` do not exist in a Python `str`; they are treated alike.) -/
def utf8EncodeChar (n : Nat) : Res Bytes :=
  if n < 0x80 then .ok [byte n]
  else if n < 0x800 then .ok [byte (0xC0 + n / 64), byte (0x80 + n % 64)]
  else if !scalar n then .error .unicodeEncode
  else if n < 0x10000 then
    .ok [byte (0xE0 + n / 4096), byte (0x80 + n / 64 % 64), byte (0x80 + n % 64)]
  else
    .ok [byte (0xF0 + n / 262144), byte (0x80 + n / 4096 % 64), byte (0x80 + n / 64 % 64),
      byte (0x80 + n % 64)]

/-- `s.encode("utf-8")`. -/
def utf8Encode : PyStr → Res Bytes
  | [] => .ok []
  | c :: s =>
    match utf8EncodeChar c with
    | .error e => .error e
    | .ok b =>
      match utf8Encode s with
      | .error e => .error e
      | .ok r => .ok (b ++ r)

/-- Continuation byte. -/
def cont (b : Byte) : Bool := 0x80 ≤ b.val && b.val < 0xC0

/-- Admissible second byte after the lead byte `b0` of a three byte sequence. -/
def second3 (b0 b1 : Byte) : Bool :=
  if b0.val = 0xE0 then 0xA0 ≤ b1.val && b1.val < 0xC0
  else if b0.val = 0xED then 0x80 ≤ b1.val && b1.val < 0xA0
  else cont b1

/-- Admissible second byte after the lead byte `b0` of a four byte sequence. -/
def second4 (b0 b1 : Byte) : Bool :=
  if b0.val = 0xF0 then 0x90 ≤ b1.val && b1.val < 0xC0
  else if b0.val = 0xF4 then 0x80 ≤ b1.val && b1.val < 0x90
  else cont b1

/-- CPython's UTF-8 decoder: the input is cut into segments, each one is either a code point
(`some`) or an ill-formed maximal subpart (`none`), the unit replaced by `errors="replace"`. -/
def utf8Segs : Bytes → List (Option Nat)
  | [] => []
  | b0 :: t =>
    if b0.val < 0x80 then some b0.val :: utf8Segs t
    else if b0.val < 0xC2 then none :: utf8Segs t
    else if b0.val < 0xE0 then
      match t with
      | [] => [none]
      | b1 :: t1 =>
        if cont b1 then some ((b0.val - 0xC0) * 64 + (b1.val - 0x80)) :: utf8Segs t1
        else none :: utf8Segs (b1 :: t1)
    else if b0.val < 0xF0 then
      match t with
      | [] => [none]
      | b1 :: t1 =>
        if second3 b0 b1 then
          match t1 with
          | [] => [none]
          | b2 :: t2 =>
            if cont b2 then
              some ((b0.val - 0xE0) * 4096 + (b1.val - 0x80) * 64 + (b2.val - 0x80)) :: utf8Segs t2
            else none :: utf8Segs (b2 :: t2)
        else none :: utf8Segs (b1 :: t1)
    else if b0.val < 0xF5 then
      match t with
      | [] => [none]
      | b1 :: t1 =>
        if second4 b0 b1 then
          match t1 with
          | [] => [none]
          | b2 :: t2 =>
            if cont b2 then
              match t2 with
              | [] => [none]
              | b3 :: t3 =>
                if cont b3 then
                  some ((b0.val - 0xF0) * 262144 + (b1.val - 0x80) * 4096 + (b2.val - 0x80) * 64
                    + (b3.val - 0x80)) :: utf8Segs t3
                else none :: utf8Segs (b3 :: t3)
            else none :: utf8Segs (b2 :: t2)
        else none :: utf8Segs (b1 :: t1)
    else none :: utf8Segs t
termination_by b => b.length

/-- All segments well formed. -/
def allSome : List (Option Nat) → Option (List Nat)
  | [] => some []
  | none :: _ => none
  | some a :: l => (allSome l).map (a :: ·)

/-- `b.decode("utf-8")`; `none` stands for `UnicodeDecodeError`. -/
def utf8Decode (b : Bytes) : Option PyStr := allSome (utf8Segs b)

/-- `b.decode("utf-8", errors="replace")`. -/
def utf8DecodeReplace (b : Bytes) : PyStr := (utf8Segs b).map (·.getD 0xFFFD)

/-- ASCII bytes as text. -/
def asciiStr (b : Bytes) : PyStr := b.map Fin.val

/-- `to_string(data)` for `bytes`, `/repo/src/psion/webtools.py:58-81`: invalid UTF-8 is silently
replaced by its base64url text. (For a `str` argument it is the identity.) -/
def toStringB (b : Bytes) : PyStr :=
  match utf8Decode b with
  | some s => s
  | none => asciiStr (b64urlEncode b)

/-- `to_bytes(data)` for `str`, `/repo/src/psion/webtools.py:32-55`.
(For a `bytes` argument it is the identity.) -/
def toBytesS (s : PyStr) : Res Bytes := utf8Encode s

/-- `to_bytes(data, "ascii")` for `str`. -/
def toBytesAscii (s : PyStr) : Res Bytes :=
  if s.all (· < 128) then .ok (s.map byte) else .error .unicodeEncode

end Psion
