import Verif.Spec.Web

/-!
# What a user submits in a form of the example application
-/

namespace Psion.Spec

open Psion Example

/-- A form of the application was submitted: posted, with the token of the page against cross-site requests. -/
structure Submitted (req : WebRequest) : Prop where
  method : req.method = py! "POST"
  csrf : req.form.csrf = true

/-- The operations of a login: accounts and their sessions are looked up, and a session is created. -/
inductive OfLogin : WOp → Prop
  | user (email : PyStr) : OfLogin (.userByEmail email)
  | session (uid : PyStr) : OfLogin (.sessionOf uid)
  | draw : OfLogin .choices32
  | save (sid uid : PyStr) : OfLogin (.saveSession sid uid)

end Psion.Spec
