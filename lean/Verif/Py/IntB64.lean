import Verif.Py.Utf8

/-!
# Integer codec

`int_to_b64` and `b64_to_int` of `/repo/src/psion/webtools.py:113-159`.
-/

namespace Psion

/-- `int.bit_length()` of a natural number. -/
def bitLength (n : Nat) : Nat := if n = 0 then 0 else Nat.log2 n + 1

/-- `n.to_bytes(len, "big")` (never overflows for the length used below). -/
def toBE : Nat → Nat → Bytes
  | 0, _ => []
  | len + 1, n => toBE len (n / 256) ++ [byte n]

/-- Value of a big-endian byte string, `int("".join("%02x" % b), 16)`. -/
def ofBE (b : Bytes) : Nat := b.foldl (fun acc x => acc * 256 + x.val) 0

/-- `int_to_b64` on `int`, `/repo/src/psion/webtools.py:138-159`. -/
def intToB64 (n : Int) : Res Bytes :=
  if n < 0 then .error .valueErr
  else .ok (b64urlEncode (toBE ((bitLength n.toNat + 7) / 8) n.toNat))

/-- `b64_to_int` on `str`, `/repo/src/psion/webtools.py:113-135`; the empty byte string makes
`int("", 16)` raise `ValueError`. -/
def b64ToInt (s : PyStr) : Res Nat :=
  match toBytesAscii s with
  | .error e => .error e
  | .ok b =>
    match b64urlDecode b with
    | .error e => .error e
    | .ok x => if x = [] then .error .valueErr else .ok (ofBE x)

end Psion
