import Verif.Spec.Stack

/-!
# Vocabulary for a whole flow through the example application
-/

namespace Psion.Spec

open Psion Example

/-- The operations of one request as a history. -/
def asSteps (l : List (Draw × WEv)) : List (Draw × WStep) := l.map fun p => (p.1, 0, p.2)

/-- One request to the example application that nothing disturbs: its operations are `l`, they lead from the database `w` to `w'`, the
database does not fail, the clock runs, it takes less than an hour, and it ends with `out`. -/
structure Visit (env : OEnv) (emailOk : PyStr → Bool) (w : WStore) (req : WebRequest) (l : List (Draw × WEv)) (w' : WStore)
    (out : ORes Served) : Prop where
  alone : Operates env w (asSteps l) w'
  prompt : PromptFor 0 (asSteps l)
  runs : WExec (app env (exHooks env) emailOk req) (l.map Prod.snd) out

/-- The operations of the library, with what was drawn for them. -/
def libDraws (l : List (Draw × WEv)) : List (Draw × Ev) := l.filterMap fun
  | (d, ⟨.lib o, ans⟩) => some (d, ⟨o, ans⟩)
  | _ => none

/-- What the framework guarantees for a request: names of headers in lower case, no lone surrogates; and the host does not have one
bracket only. -/
structure Framed (req : WebRequest) : Prop where
  names : ∀ kv ∈ req.headers, asciiLower kv.1 = kv.1
  plain : Encodable req.site ∧ Encodable req.url ∧ Encodable req.query
  host : ¬ OneBracket req.url

/-- The user sends the form of the login page with their address and password. The form keeps the query string of the page. -/
structure LogsIn (emailOk : PyStr → Bool) (req : WebRequest) (row : UserRow) (query : PyStr) : Prop where
  route : req.route = .login
  method : req.method = py! "POST"
  cookie : req.cookie = none
  form : GoodForm emailOk req.form
  email : req.form.email = row.email
  password : req.form.password = row.password
  query : req.query = query
  plain : Encodable req.site ∧ Encodable req.query

/-- A `POST` request to the token endpoint without session cookie. -/
structure TokenCall (req : WebRequest) : Prop extends Framed req where
  route : req.route = .token
  method : req.method = py! "POST"
  cookie : req.cookie = none

end Psion.Spec
