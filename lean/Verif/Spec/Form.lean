import Verif.OAuth.Http

/-!
# The format of parameters

The format `application/x-www-form-urlencoded` of query strings and forms (WHATWG URL standard, section 5.1, as `urllib.parse`
understands it), and UTF-8 (RFC 3629).
-/

namespace Psion.Spec

open Psion

/-- UTF-8: the bytes of a character, RFC 3629 section 3. -/
inductive Utf8 : Nat → Bytes → Prop
  | one (c : Nat) (b0 : Byte) : c < 0x80 → b0.val = c → Utf8 c [b0]
  | two (c : Nat) (b0 b1 : Byte) : 0x80 ≤ c → c < 0x800 → b0.val = 0xC0 + c / 64 → b1.val = 0x80 + c % 64 → Utf8 c [b0, b1]
  | three (c : Nat) (b0 b1 b2 : Byte) : 0x800 ≤ c → c < 0x10000 → (c < 0xD800 ∨ 0xE000 ≤ c) → b0.val = 0xE0 + c / 4096 →
      b1.val = 0x80 + c / 64 % 64 → b2.val = 0x80 + c % 64 → Utf8 c [b0, b1, b2]
  | four (c : Nat) (b0 b1 b2 b3 : Byte) : 0x10000 ≤ c → c < 0x110000 → b0.val = 0xF0 + c / 262144 →
      b1.val = 0x80 + c / 4096 % 64 → b2.val = 0x80 + c / 64 % 64 → b3.val = 0x80 + c % 64 → Utf8 c [b0, b1, b2, b3]

/-- The bytes of a text. -/
inductive Utf8Text : PyStr → Bytes → Prop
  | nil : Utf8Text [] []
  | cons (c : Nat) (b : Bytes) (s : PyStr) (r : Bytes) : Utf8 c b → Utf8Text s r → Utf8Text (c :: s) (b ++ r)

/-- A hexadecimal digit and its value. -/
def PctDigit (c v : Nat) : Prop :=
  (48 ≤ c ∧ c ≤ 57 ∧ v = c - 48) ∨ (65 ≤ c ∧ c ≤ 70 ∧ v = c - 55) ∨ (97 ≤ c ∧ c ≤ 102 ∧ v = c - 87)

/-- What a written text stands for: bytes, and characters outside ASCII that were not written as bytes. -/
inductive Item
  | byte (b : Byte)
  | char (c : Nat)
  deriving DecidableEq

/-- `+` stands for a space, `%` with two hexadecimal digits for a byte, and everything else for itself. -/
inductive Items : PyStr → List Item → Prop
  | nil : Items [] []
  | plus (s : PyStr) (l : List Item) : Items s l → Items (43 :: s) (.byte 32 :: l)
  | escape (a b x y : Nat) (s : PyStr) (l : List Item) : PctDigit a x → PctDigit b y → Items s l →
      Items (37 :: a :: b :: s) (.byte (byte (x * 16 + y)) :: l)
  | plain (c : Nat) (s : PyStr) (l : List Item) : c < 128 → c ≠ 43 →
      (c = 37 → ∀ a b t x y, s = a :: b :: t → PctDigit a x → ¬ PctDigit b y) → Items s l →
      Items (c :: s) (.byte (byte c) :: l)
  | other (c : Nat) (s : PyStr) (l : List Item) : 128 ≤ c → Items s l → Items (c :: s) (.char c :: l)

/-- The bytes `b` in front of `l` are not UTF-8 (Unicode standard, section 3.9, "maximal subpart"): either they are the beginning
of a character that is not continued, or a single byte with which no character begins. -/
def IllFormed (b : Bytes) (l : List Item) : Prop :=
  (b ≠ [] ∧ (∃ c e, e ≠ [] ∧ Utf8 c (b ++ e)) ∧ ∀ x r, l = .byte x :: r → ∀ c e, ¬ Utf8 c (b ++ x :: e)) ∨
    ∃ x, b = [x] ∧ ∀ c e, ¬ Utf8 c (x :: e)

/-- The bytes are read as UTF-8; ill-formed ones are replaced. -/
inductive Decoded : List Item → PyStr → Prop
  | nil : Decoded [] []
  | char (c : Nat) (l : List Item) (t : PyStr) : Decoded l t → Decoded (.char c :: l) (c :: t)
  | good (c : Nat) (b : Bytes) (l : List Item) (t : PyStr) : Utf8 c b → Decoded l t → Decoded (b.map .byte ++ l) (c :: t)
  | bad (b : Bytes) (l : List Item) (t : PyStr) : IllFormed b l → Decoded l t → Decoded (b.map .byte ++ l) (0xFFFD :: t)

/-- The text `t` is written as `s`. -/
def Written (s t : PyStr) : Prop := ∃ l, Items s l ∧ Decoded l t

/-- The pieces of a query string, separated by `&`. -/
inductive Pieces : PyStr → List PyStr → Prop
  | last (p : PyStr) : 38 ∉ p → Pieces p [p]
  | cons (p q : PyStr) (ps : List PyStr) : 38 ∉ p → Pieces q ps → Pieces (p ++ 38 :: q) (p :: ps)

/-- The piece gives the parameter a value, which is not empty. -/
def Field (p k v : PyStr) : Prop := ∃ a b, p = a ++ 61 :: b ∧ 61 ∉ a ∧ b ≠ [] ∧ Written a k ∧ Written b v

/-- The query string gives the parameter this value; the last piece counts. -/
def Parameter (q k v : PyStr) : Prop :=
  ∃ ps l p r, Pieces q ps ∧ ps = l ++ p :: r ∧ Field p k v ∧ ∀ p' ∈ r, ∀ v', ¬ Field p' k v'

/-- The query of a URL: what is between the first `?` and the fragment. Tabs and line breaks in the URL do not count. -/
def QueryOf (url q : PyStr) : Prop :=
  ∃ main, (url.filter (fun c => decide (c ≠ 9 ∧ c ≠ 10 ∧ c ≠ 13)) = main ∨
      ∃ fragment, url.filter (fun c => decide (c ≠ 9 ∧ c ≠ 10 ∧ c ≠ 13)) = main ++ 35 :: fragment) ∧ 35 ∉ main ∧
    ((63 ∉ main ∧ q = []) ∨ ∃ base, main = base ++ 63 :: q ∧ 63 ∉ base)

/-- The host of a URL: what is between the first two slashes, after the scheme if there is one, and the path, the query or the
fragment. Tabs and line breaks in the URL do not count. -/
def HostOf (url host : PyStr) : Prop :=
  ∃ scheme rest, url.filter (fun c => decide (c ≠ 9 ∧ c ≠ 10 ∧ c ≠ 13)) = scheme ++ 47 :: 47 :: host ++ rest ∧
    (scheme = [] ∨ ∃ name, scheme = name ++ [58] ∧ name ≠ [] ∧
      ∀ c ∈ name, (65 ≤ c ∧ c ≤ 90) ∨ (97 ≤ c ∧ c ≤ 122) ∨ (48 ≤ c ∧ c ≤ 57) ∨ c = 43 ∨ c = 45 ∨ c = 46) ∧
    (∀ c ∈ host, c ≠ 47 ∧ c ≠ 63 ∧ c ≠ 35) ∧ (rest = [] ∨ ∃ c t, rest = c :: t ∧ (c = 47 ∨ c = 63 ∨ c = 35))

/-- The URL has a host in which one of the brackets `[` and `]` occurs without the other. -/
def OneBracket (url : PyStr) : Prop := ∃ host, HostOf url host ∧ ¬ (91 ∈ host ↔ 93 ∈ host)

end Psion.Spec
