import Verif.Spec.Web

/-!
# The URLs of the example application and what is behind them

From the routes in `/repo/example/main.py:22-27` and `/repo/example/routes/`, and the methods that the views have. Independent of the
model of the views.
-/

namespace Psion.Spec

open Psion Example

/-- Requests that only read. -/
def Reads (req : WebRequest) : Prop := req.method = py! "GET" ∨ req.method = py! "HEAD"

/-- Requests that send something. -/
def Posts (req : WebRequest) : Prop := req.method = py! "POST"

/-- The methods that a URL is meant for. -/
def Meant (req : WebRequest) : Prop :=
  match req.route with
  | .home | .error | .authorize => Reads req
  | .login | .logout => Reads req ∨ Posts req
  | .token | .revoke => Posts req

/-- The user agent is sent to another page of the site. -/
def SentTo (req : WebRequest) (path : PyStr) (reply : Reply) : Prop :=
  ∃ loc, quotePlus locSafe (req.site ++ path) = .ok loc ∧ reply = .response 303 [(py! "location", loc)] []

/-- What a request of `user` is answered with, as far as this does not depend on the library or the database. -/
def Expected (req : WebRequest) (user : Option User) (reply : Reply) : Prop :=
  match req.route with
  | .home => reply = .page .home
  | .error => reply = .page .error
  | .login =>
    (user ≠ none → SentTo req (py! "/") reply) ∧
      (user = none → Reads req → reply = .page .login)
  | .logout => (Posts req → SentTo req (py! "/auth/logout") reply) ∧ (Reads req → SentTo req (py! "/auth/login") reply)
  | .authorize | .token | .revoke => reply ≠ .page .methodNotAllowed

/-- The request is one of a session whose user does not exist any more. -/
def Orphaned (req : WebRequest) (tr : List WEv) : Prop :=
  ∃ c, req.cookie = some c ∧ tr = [⟨.session c.sessionId c.userId, .ok (some none)⟩]

end Psion.Spec
