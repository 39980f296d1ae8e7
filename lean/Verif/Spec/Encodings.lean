import Verif.Spec.Bits

/-!
# Texts for octets: RFC 4648, RFC 3629, RFC 7518
-/

namespace Psion.Spec

open Psion

/-! ## Base 64 (RFC 4648) -/

/-- Table 1. -/
def base64Alphabet : Bytes := by! "ABCDEFGHIJKLMNOPQRSTUVWXYZabcdefghijklmnopqrstuvwxyz0123456789+/"

/-- Table 2. -/
def base64urlAlphabet : Bytes := by! "ABCDEFGHIJKLMNOPQRSTUVWXYZabcdefghijklmnopqrstuvwxyz0123456789-_"

/-- The octets cut into groups of six bits; the last group is filled with zeros (section 4). -/
def Groups (m : Bytes) (groups : List Nat) : Prop :=
  (∀ g ∈ groups, g < 64) ∧ ∃ zeros < 6, groups.flatMap (bitsOf 6) = octetBits m ++ List.replicate zeros false

/-- Section 4: `text` is the octets in base 64, with pad characters up to a multiple of four. -/
def Base64 (m text : Bytes) : Prop :=
  ∃ groups chars pad, Groups m groups ∧ groups.mapM (base64Alphabet[·]?) = some chars ∧ text = chars ++ List.replicate pad 61 ∧ pad < 4 ∧
    text.length % 4 = 0

/-- Section 5: `text` is the octets in base 64 with the alphabet for URLs; without pad characters, as in RFC 7515, section 2. -/
def Base64url (m text : Bytes) : Prop :=
  ∃ groups, Groups m groups ∧ groups.mapM (base64urlAlphabet[·]?) = some text

/-- RFC 7518, section 2: a number as its octets, as few as possible, but at least one. -/
def Base64urlUInt (n : Nat) (text : Bytes) : Prop :=
  ∃ m, octetsValue m = n ∧ m ≠ [] ∧ (m.head? = some 0 → m = [0]) ∧ Base64url m text

/-! ## UTF-8 (RFC 3629, section 3) -/

/-- The table: the octets of a character. -/
inductive Utf8Char : Nat → Bytes → Prop
  | one {c b} (h : c ≤ 0x7F) (hb : octetBits b = [false] ++ bitsOf 7 c) : Utf8Char c b
  | two {c b} (h : 0x80 ≤ c) (h' : c ≤ 0x7FF) (hb : octetBits b = [true, true, false] ++ bitsOf 5 (c / 2 ^ 6) ++ [true, false] ++ bitsOf 6 c) :
    Utf8Char c b
  | three {c b} (h : 0x800 ≤ c) (h' : c ≤ 0xFFFF) (hs : ¬ (0xD800 ≤ c ∧ c ≤ 0xDFFF))
    (hb : octetBits b = [true, true, true, false] ++ bitsOf 4 (c / 2 ^ 12) ++ [true, false] ++ bitsOf 6 (c / 2 ^ 6) ++ [true, false] ++
      bitsOf 6 c) : Utf8Char c b
  | four {c b} (h : 0x10000 ≤ c) (h' : c ≤ 0x10FFFF)
    (hb : octetBits b = [true, true, true, true, false] ++ bitsOf 3 (c / 2 ^ 18) ++ [true, false] ++ bitsOf 6 (c / 2 ^ 12) ++ [true, false] ++
      bitsOf 6 (c / 2 ^ 6) ++ [true, false] ++ bitsOf 6 c) : Utf8Char c b

/-- The octets of a text. -/
inductive Utf8Octets : PyStr → Bytes → Prop
  | nil : Utf8Octets [] []
  | cons {c s b d} (hc : Utf8Char c b) (hs : Utf8Octets s d) : Utf8Octets (c :: s) (b ++ d)

end Psion.Spec
