import Verif.Py.Base

/-!
# Base64

The C functions `binascii.a2b_base64` / `binascii.b2a_base64` of CPython, the wrappers of `base64` and the
functions `base64url_decode` / `base64url_encode` of `/repo/src/psion/webtools.py:84-110`.
-/

namespace Psion

/-- Character (as a byte value) of the standard alphabet for a value `< 64`. -/
def b64Char (n : Nat) : Byte :=
  if n < 26 then byte (65 + n)
  else if n < 52 then byte (97 + (n - 26))
  else if n < 62 then byte (48 + (n - 52))
  else if n = 62 then 43 else 47

/-- Inverse table `table_a2b_base64`: value of a character of the alphabet, `none` for others. -/
def b64Val (c : Byte) : Option Nat :=
  if 65 ≤ c.val ∧ c.val ≤ 90 then some (c.val - 65)
  else if 97 ≤ c.val ∧ c.val ≤ 122 then some (c.val - 97 + 26)
  else if 48 ≤ c.val ∧ c.val ≤ 57 then some (c.val - 48 + 52)
  else if c.val = 43 then some 62
  else if c.val = 47 then some 63
  else none

/-- `binascii.b2a_base64(data, newline=False)`. -/
def b2a : Bytes → Bytes
  | [] => []
  | [a] => [b64Char (a.val / 4), b64Char (a.val % 4 * 16), 61, 61]
  | [a, b] =>
    [b64Char (a.val / 4), b64Char (a.val % 4 * 16 + b.val / 16), b64Char (b.val % 16 * 4), 61]
  | a :: b :: c :: rest =>
    b64Char (a.val / 4) :: b64Char (a.val % 4 * 16 + b.val / 16) ::
      b64Char (b.val % 16 * 4 + c.val / 64) :: b64Char (c.val % 64) :: b2a rest

/-- The loop of `binascii.a2b_base64` (non strict mode): `quad` is `quad_pos`, `left` is
`leftchar`, `pads` is `pads`. A `=` is skipped unless it completes the padding of the current
quad, in which case decoding stops there (the rest of the input is ignored). Characters outside of
the alphabet are skipped. At the end of the input an incomplete quad raises `binascii.Error`. -/
def a2bLoop (quad left pads : Nat) : Bytes → Res Bytes
  | [] => if quad = 0 then .ok [] else .error .binascii
  | c :: cs =>
    if c.val = 61 then
      if 2 ≤ quad then
        if 4 ≤ quad + (pads + 1) then .ok [] else a2bLoop quad left (pads + 1) cs
      else a2bLoop quad left pads cs
    else
      match b64Val c with
      | none => a2bLoop quad left pads cs
      | some v =>
        if quad = 0 then a2bLoop 1 v 0 cs
        else if quad = 1 then
          (a2bLoop 2 (v % 16) 0 cs).map (byte (left * 4 + v / 16) :: ·)
        else if quad = 2 then
          (a2bLoop 3 (v % 4) 0 cs).map (byte (left * 16 + v / 4) :: ·)
        else
          (a2bLoop 0 0 0 cs).map (byte (left * 64 + v) :: ·)

/-- `binascii.a2b_base64` / `base64.b64decode` on `bytes`. -/
def a2b (d : Bytes) : Res Bytes := a2bLoop 0 0 0 d

/-- `bytes.maketrans(b'+/', b'-_')`, used by `base64.urlsafe_b64encode`. -/
def toUrlsafe (c : Byte) : Byte := if c.val = 43 then 45 else if c.val = 47 then 95 else c

/-- `bytes.maketrans(b'-_', b'+/')`, used by `base64.urlsafe_b64decode`. -/
def ofUrlsafe (c : Byte) : Byte := if c.val = 45 then 43 else if c.val = 95 then 47 else c

/-- `data.rstrip(b"=")`. -/
def rstripPad : Bytes → Bytes
  | [] => []
  | c :: d => if c.val = 61 ∧ rstripPad d = [] then [] else c :: rstripPad d

/-- `base64url_encode` on `bytes`, `/repo/src/psion/webtools.py:99-110`
(for a `str` argument it is composed with `to_bytes`, see `Utf8.lean`). -/
def b64urlEncode (d : Bytes) : Bytes := rstripPad ((b2a d).map toUrlsafe)

/-- `base64url_decode`, `/repo/src/psion/webtools.py:84-96`: appends `len(data) % 4` pad characters
and calls `base64.urlsafe_b64decode`. -/
def b64urlDecode (d : Bytes) : Res Bytes :=
  a2b ((d ++ List.replicate (d.length % 4) 61).map ofUrlsafe)

end Psion
