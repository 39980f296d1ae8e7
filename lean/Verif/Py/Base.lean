/-!
# Basic Python values

Representation of `bytes`, `str` and exceptions used by every other file.
-/

namespace Psion

/-- A byte (`0 ≤ b < 256`), an element of a Python `bytes` object. -/
abbrev Byte := Fin 256

/-- Python `bytes`. -/
abbrev Bytes := List Byte

/-- Python `str`: a sequence of code points. As in CPython, lone surrogates are possible
elements of a `str`; they only fail when the text is encoded (`Utf8.lean`). -/
abbrev PyStr := List Nat

/-- Exceptions raised by the JOSE half of the library,
`/repo/src/psion/jose/exceptions.py:1-51` (all of them derive from `JoseError`). The message of
the exception is not modelled. -/
inductive JoseExc
  | invalidKey | invalidKeySet | invalidSignature | invalidJWSHeader | invalidJWSSerialization
  | unsupportedAlgorithm | unsupportedParsingMethod | invalidJWTClaim | expiredToken
  | notYetValidToken
  deriving DecidableEq, Repr

/-- Exceptions as values. `binascii`, `unicodeEncode` and `jsonDecode` are subclasses of `ValueError` in Python;
`valueErr` is a plain `ValueError`. `ext n` is any exception raised by code outside of the library
(an adapter, a hook, a primitive of `cryptography`). Messages are not modelled. -/
inductive Exc
  | binascii | unicodeEncode | jsonDecode | valueErr | typeErr | keyErr | attrErr | runtimeErr
  | jose (e : JoseExc)
  | ext (n : Nat)
  deriving DecidableEq, Repr

/-- `isinstance(exc, ValueError)` for the modelled built-in exceptions. -/
def Exc.isValueError : Exc → Bool
  | .binascii | .unicodeEncode | .jsonDecode | .valueErr => true
  | _ => false

/-- `isinstance(exc, JoseError)`. -/
def Exc.isJose : Exc → Bool
  | .jose _ => true
  | _ => false

/-- Result of a Python call that may raise. -/
abbrev Res (α : Type) := Except Exc α

instance {ε α : Type} [DecidableEq ε] [DecidableEq α] : DecidableEq (Except ε α)
  | .ok a, .ok b => if h : a = b then isTrue (h ▸ rfl) else isFalse (fun e => h (by cases e; rfl))
  | .error a, .error b =>
    if h : a = b then isTrue (h ▸ rfl) else isFalse (fun e => h (by cases e; rfl))
  | .ok _, .error _ => isFalse (fun e => by cases e)
  | .error _, .ok _ => isFalse (fun e => by cases e)

/-- `py! "text"` is the explicit list of the code points of the literal. -/
macro "py!" s:str : term => do
  let cs := s.getString.toList.map fun c => Lean.quote (k := `term) c.toNat
  let t ← cs.foldrM (fun c t => `(List.cons $c $t)) (← `(List.nil))
  `(($t : List Nat))

/-- `by! "text"` is the explicit list of bytes of an ASCII literal. -/
macro "by!" s:str : term => do
  let cs := s.getString.toList.map fun c => Lean.quote (k := `term) c.toNat
  let t ← cs.foldrM (fun c t => `(List.cons $c $t)) (← `(List.nil))
  `(($t : List (Fin 256)))

/-- Byte with the value `n mod 256`; every use in the model has `n < 256`. -/
def byte (n : Nat) : Byte := ⟨n % 256, Nat.mod_lt _ (by decide)⟩

@[simp] theorem byte_val (n : Nat) : (byte n).val = n % 256 := rfl

@[simp] theorem byte_lit_val (n : Nat) : (no_index (OfNat.ofNat n) : Byte).val = n % 256 := rfl

theorem byte_eq_iff (n : Nat) (b : Byte) : byte n = b ↔ n % 256 = b.val := by
  constructor
  · intro h; rw [← h]; rfl
  · intro h; exact Fin.ext h

@[simp] theorem byte_of_val (b : Byte) : byte b.val = b := by
  apply Fin.ext; simp [byte]

theorem byte_inj_lt {m n : Nat} (hm : m < 256) (hn : n < 256) (h : byte m = byte n) : m = n := by
  have := congrArg Fin.val h
  simp only [byte_val] at this
  omega

end Psion
