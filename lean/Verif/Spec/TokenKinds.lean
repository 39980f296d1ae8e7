import Verif.Spec.Jose
import Verif.Jose.Jwt

/-!
# Vocabulary for telling access tokens from ID tokens

What distinguishes a JWT access token (RFC 9068) from an ID token (OpenID Connect Core 1.0, section 2).
-/

namespace Psion.Spec

open Psion

/-- The decoded token is an access token: it says so in its header, tells for which client and which scopes it is, and says nothing
that only an ID token says. -/
structure AccessKind (t : Jwt) : Prop where
  typ : dget t.header.data (py! "typ") = .str (py! "at+jwt")
  client : ∃ s, dget t.claims (py! "client_id") = .str s
  scope : ∃ s, dget t.claims (py! "scope") = .str s
  jti : ∃ s, dget t.claims (py! "jti") = .str s
  others : ∀ k ∈ [py! "aud", py! "at_hash", py! "nonce"], dget t.claims k = .none

/-- The decoded token is an ID token: it does not say that it is an access token, tells for whom it is and to which access token it
belongs, and says nothing that only an access token says. -/
structure IdKind (t : Jwt) : Prop where
  typ : dget t.header.data (py! "typ") = .str (py! "JWT")
  aud : ∃ s, dget t.claims (py! "aud") = .str s
  atHash : ∃ s, dget t.claims (py! "at_hash") = .str s
  others : ∀ k ∈ [py! "client_id", py! "scope", py! "jti"], dget t.claims k = .none

/-- The option demands that the claim is there: as essential, or with a text that it has to be equal to. -/
def Demands (o : Dict PyStr Val) : Prop :=
  dget o (py! "essential") = .bool true ∨ ∃ c s, dget o (py! "value") = .str (c :: s)

/-- The claims that every access token contains, RFC 9068, section 2.2. -/
def requiredOfAccess : List PyStr :=
  [py! "iss", py! "exp", py! "aud", py! "sub", py! "client_id", py! "iat", py! "jti"]

/-- The token is a JWT access token as RFC 9068 describes it: it is signed (section 2.1), says of which type it is (section 2.1), and
contains the required claims (section 2.2). -/
structure Rfc9068 (t : Jwt) : Prop where
  signed : ∃ a, dget t.header.data (py! "alg") = .str a ∧ a ≠ py! "none"
  typ : dget t.header.data (py! "typ") = .str (py! "at+jwt") ∨ dget t.header.data (py! "typ") = .str (py! "application/at+jwt")
  claims : ∀ k ∈ requiredOfAccess, dget t.claims k ≠ .none

end Psion.Spec
