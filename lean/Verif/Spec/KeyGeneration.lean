import Verif.Spec.Rfc8017
import Verif.Spec.Fips186

/-!
# What the generators of fresh keys give

`os.urandom`, `ec.generate_private_key` and `rsa.generate_private_key` are random: the model takes what they return as an input
(`Fresh`). Here is what their documentation, FIPS 186-4 (appendix B.4) and RFC 8017 (section 3) say of it, whatever the coins.
-/

namespace Psion.Spec

open Psion

/-- An RSA key of `size` bits with the exponent `e`: RFC 8017, section 3.2, both representations of the private key together, with odd
primes. -/
structure FreshRsa (size e n : Nat) (r : RsaPriv) : Prop where
  key : RsaKey n e r
  big : 2 ^ (size - 1) ≤ n
  small : n < 2 ^ size
  p : 2 < r.p
  q : 2 < r.q
  d : r.d < n
  dp : r.dp = r.d % (r.p - 1)
  dq : r.dq = r.d % (r.q - 1)
  qi : r.qi < r.p ∧ r.q * r.qi % r.p = 1

/-- What the generators draw. -/
structure Drawn (f : Fresh) : Prop where
  oct : ∀ n, (f.oct n).length = n
  ec : ∀ c x y d, f.ec c = (x, y, d) → EcKey c x y d
  rsa : ∀ e size n e' r, f.rsa e size = .ok (n, e', r) → e' = e ∧ FreshRsa size e n r

end Psion.Spec
