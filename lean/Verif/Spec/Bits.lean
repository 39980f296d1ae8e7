import Verif.Py.Base

/-!
# Bits, octets and numbers
-/

namespace Psion.Spec

open Psion

/-- The `n` bits of a number, most significant first. -/
def bitsOf (n x : Nat) : List Bool := (List.range n).map (fun i => x.testBit (n - 1 - i))

/-- The number with these bits. -/
def ofBits (l : List Bool) : Nat := l.foldl (fun n b => 2 * n + b.toNat) 0

/-- The bits of octets. -/
def octetBits (m : Bytes) : List Bool := m.flatMap (fun b => bitsOf 8 b.val)

/-- The number that octets stand for, most significant first (OS2IP of RFC 8017). -/
def octetsValue (b : Bytes) : Nat := ofBits (octetBits b)

end Psion.Spec
