import Verif.Py.Webtools

/-!
# Vocabulary for the properties about authorization headers
-/

namespace Psion.Spec

open Psion

/-- White space only. -/
def Blank (s : PyStr) : Prop := ∀ c ∈ s, isPySpace c = true

/-- The header value consists of a word `scheme`, white space and the text `rest`; there may be white space in front. -/
def Parts (auth scheme rest : PyStr) : Prop :=
  ∃ a b c r, auth = a ++ scheme ++ b ++ rest ∧ Blank a ∧ Blank b ∧ b ≠ [] ∧ scheme ≠ [] ∧
    (∀ c ∈ scheme, isPySpace c = false) ∧ rest = c :: r ∧ isPySpace c = false

/-- The text is the name `name` up to the case of its letters (the name is in lower case). -/
inductive Spells : PyStr → PyStr → Prop
  | nil : Spells [] []
  | cons (c l : Nat) (s name : PyStr) : c = l ∨ (65 ≤ c ∧ c ≤ 90 ∧ l = c + 32) → Spells s name → Spells (c :: s) (l :: name)

/-- The value of the authorization header. A header whose name is in lower case takes precedence unless it is empty. -/
def Sent (headers : Dict PyStr PyStr) (auth : PyStr) : Prop :=
  (Dict.get headers (py! "authorization") = some auth ∧ auth ≠ []) ∨
    ((∀ a, Dict.get headers (py! "authorization") = some a → a = []) ∧ Dict.get headers (py! "Authorization") = some auth)

/-- A header of the scheme with the given text after it: the word in any case, and white space that contains a space. -/
def SentFor (headers : Dict PyStr PyStr) (scheme text : PyStr) : Prop :=
  ∃ auth word, Sent headers auth ∧ 32 ∈ auth ∧ Parts auth word text ∧ Spells word scheme

/-- A Basic header with the credentials (RFC 7617): base64 of the UTF-8 text `id:secret`. -/
def Credentials (headers : Dict PyStr PyStr) (id secret : PyStr) : Prop :=
  ∃ token raw, SentFor headers (py! "basic") token ∧ b64decodeStr token = .ok raw ∧
    utf8Encode (id ++ py! ":" ++ secret) = .ok raw ∧ 58 ∉ id

/-- A header value with a space that does not consist of two words. -/
def NotTwoWords (headers : Dict PyStr PyStr) : Prop :=
  ∃ auth, Sent headers auth ∧ 32 ∈ auth ∧ ∀ w t, ¬ Parts auth w t

/-- A header that is malformed for Basic authentication: not two words, or characters outside ASCII after the word `Basic`. -/
def MalformedBasic (headers : Dict PyStr PyStr) : Prop :=
  NotTwoWords headers ∨ ∃ t, SentFor headers (py! "basic") t ∧ ∃ c ∈ t, 128 ≤ c

end Psion.Spec
