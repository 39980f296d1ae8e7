import Verif.Spec.Form
import Verif.Spec.Headers
import Verif.Spec.OAuth

/-!
# The wire format of RFC 6749 and RFC 7636

How the standards want credentials, parameters, error descriptions and code verifiers to be written. Independent of the code.
-/

namespace Psion.Spec

open Psion

/-- Letters and digits of ASCII. -/
def Alnum (c : Nat) : Prop := (48 ≤ c ∧ c ≤ 57) ∨ (65 ≤ c ∧ c ≤ 90) ∨ (97 ≤ c ∧ c ≤ 122)

/-- The characters that every encoder of `application/x-www-form-urlencoded` leaves as they are: letters, digits, `-`, `.`, `_`. -/
def FormSafe (c : Nat) : Prop := Alnum c ∨ c = 45 ∨ c = 46 ∨ c = 95

/-- Bytes as percent escapes. -/
inductive Escapes : Bytes → PyStr → Prop
  | nil : Escapes [] []
  | cons (b : Byte) (x y : Nat) (r : Bytes) (s : PyStr) : PctDigit x (b.val / 16) → PctDigit y (b.val % 16) → Escapes r s →
      Escapes (b :: r) (37 :: x :: y :: s)

/-- How a character is written in `application/x-www-form-urlencoded`, RFC 6749 appendix B. The encoders do not agree on `*` and
`~`. -/
inductive FormChar : Nat → PyStr → Prop
  | safe (c : Nat) : FormSafe c → FormChar c [c]
  | either (c : Nat) : c = 42 ∨ c = 126 → FormChar c [c]
  | space : FormChar 32 [43]
  | escaped (c : Nat) (b : Bytes) (s : PyStr) : ¬ FormSafe c → Utf8 c b → Escapes b s → FormChar c s

/-- How a text is written. -/
inductive FormText : PyStr → PyStr → Prop
  | nil : FormText [] []
  | cons (c : Nat) (w s t : PyStr) : FormChar c w → FormText s t → FormText (c :: s) (w ++ t)

/-- A Basic header with the credentials of a client, RFC 6749 section 2.3.1: both are encoded as in a form before they are put into
the header. -/
def RfcCredentials (headers : Dict PyStr PyStr) (id secret : PyStr) : Prop :=
  ∃ a b, FormText id a ∧ FormText secret b ∧ Credentials headers a b

/-- The parameter `k` is repeated in the query string or form `q`. -/
def Repeated (q k : PyStr) : Prop :=
  ∃ l p m p' r v v', Pieces q (l ++ p :: m ++ p' :: r) ∧ Field p k v ∧ Field p' k v'

/-- The characters of `error` and `error_description`, RFC 6749 section 5.2. -/
def ErrorChar (c : Nat) : Prop := c = 0x20 ∨ c = 0x21 ∨ (0x23 ≤ c ∧ c ≤ 0x5B) ∨ (0x5D ≤ c ∧ c ≤ 0x7E)

/-- Code verifiers and challenges, RFC 7636 sections 4.1 and 4.2: 43 to 128 letters, digits, `-`, `.`, `_` and `~`. -/
def PkceText (s : PyStr) : Prop := 43 ≤ s.length ∧ s.length ≤ 128 ∧ ∀ c ∈ s, FormSafe c ∨ c = 126

/-- The characters of a scope, RFC 6749 section 3.3. -/
def ScopeChar (c : Nat) : Prop := c = 0x21 ∨ (0x23 ≤ c ∧ c ≤ 0x5B) ∨ (0x5D ≤ c ∧ c ≤ 0x7E)

/-- A single scope. -/
def ScopeToken (s : PyStr) : Prop := s ≠ [] ∧ ∀ c ∈ s, ScopeChar c

/-- The value of `scope`: one or more scopes with a space between two of them. -/
inductive ScopeText : PyStr → List PyStr → Prop
  | one (t : PyStr) : ScopeToken t → ScopeText t [t]
  | more (t s : PyStr) (ts : List PyStr) : ScopeToken t → ScopeText s ts → ScopeText (t ++ 32 :: s) (t :: ts)

end Psion.Spec
