import Verif.Py.Val

/-!
# The scopes of OpenID Connect
-/

namespace Psion.Spec

/-- The scope that makes a request one of OpenID Connect, and the scopes that ask for information about the user: OpenID
Connect Core 1.0, sections 3.1.2.1 and 5.4. (`offline_access` asks for something else.) -/
def standardScopes : List PyStr := [py! "openid", py! "profile", py! "email", py! "phone", py! "address"]

end Psion.Spec
