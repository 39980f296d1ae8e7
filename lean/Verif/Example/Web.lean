import Verif.Example.Adapter

/-!
# The example application: web layer

`/repo/src/psion/oauth2/providers/starlette.py`, `/repo/example/main.py`, `/repo/example/routes/`, `/repo/example/views/`,
`/repo/example/middlewares/authentication.py` and `/repo/example/models/sessions.py`.

Starlette 0.14.2, starlette-wtf and itsdangerous are not part of the repository. What is used of them is described here: a request
arrives with its route, its headers (names in lower case), its body, the login form read from it, and the content of the session
cookie if its signature is valid. Templates are pages with a name. Every query of the views takes effect at one point of time and
may fail.
-/

namespace Psion.Example

open Psion Spec

/-! ## Requests and replies -/

/-- The endpoints of `/repo/example/main.py:22-27` and `/repo/example/routes/`. -/
inductive Route
  | home | login | logout | authorize | error | revoke | token
  deriving DecidableEq, Repr

/-- `LoginForm`, `/repo/example/forms/login.py`, and whether its CSRF token is valid. A missing field is empty. -/
structure LoginForm where
  email : PyStr
  password : PyStr
  csrf : Bool
  deriving DecidableEq, Repr

/-- `request.session["psion"]`, `/repo/example/views/auth.py:86-89`: the ids of a user and of a session. -/
structure Cookie where
  userId : PyStr
  sessionId : PyStr
  deriving DecidableEq, Repr

/-- A request as the framework delivers it. `site` is the scheme and the host as the framework derives them for `url_for`; `query`
is the query string. -/
structure WebRequest where
  route : Route
  method : PyStr
  site : PyStr
  url : PyStr
  query : PyStr
  headers : List (PyStr × PyStr)
  body : Bytes
  form : LoginForm
  cookie : Option Cookie
  deriving DecidableEq, Repr

/-- Rendered templates, and the answers of the framework itself. -/
inductive Page
  | home | login | invalidCredentials | error | badRequest | methodNotAllowed
  deriving DecidableEq, Repr

/-- What is sent back: a response with status, headers (names in lower case) and body, or a page. -/
inductive Reply
  | response (status : Nat) (headers : List (PyStr × PyStr)) (body : Bytes)
  | page (p : Page)
  deriving DecidableEq, Repr

/-- The outcome of a request: the reply, and the new content of the session cookie if it was set. -/
structure Served where
  reply : Reply
  cookie : Option Cookie := none
  deriving DecidableEq, Repr

/-! ## The provider for Starlette -/

/-- `dict(request.headers)`: of several headers with the same name, the first one counts. -/
def headerDict : List (PyStr × PyStr) → Dict PyStr PyStr
  | [] => []
  | (k, v) :: l => (k, v) :: (headerDict l).filter (fun kv => decide (kv.1 ≠ k))

/-- `StarletteProvider.create_request`, `/repo/src/psion/oauth2/providers/starlette.py:10-17`. -/
def createRequest (req : WebRequest) (user : Option User) : Res Request :=
  Request.init req.method req.url (headerDict req.headers) (some req.body) user

/-- `v.encode("latin-1")` of the framework, with the text itself as result. A value `None` has no `encode`. -/
def latin1 : Option PyStr → Res PyStr
  | none => .error .attrErr
  | some v => if v.all (fun c => decide (c < 256)) then .ok v else .error .unicodeEncode

/-- `[(k.lower().encode("latin-1"), v.encode("latin-1")) for k, v in headers.items()]`. -/
def rawHeaders : NDict PyStr PyStr → Res (List (PyStr × PyStr))
  | [] => .ok []
  | (k, v) :: l =>
    match latin1 (some (asciiLower k)) with
    | .error e => .error e
    | .ok k =>
      match latin1 v with
      | .error e => .error e
      | .ok v =>
        match rawHeaders l with
        | .error e => .error e
        | .ok l => .ok ((k, v) :: l)

/-- The decimal digits of a number. -/
def decimal (n : Nat) : PyStr := intStr n

/-- `StarletteProvider.create_response`, `/repo/src/psion/oauth2/providers/starlette.py:19-20`, with the constructor of the
framework: the length of a body that is not empty is added unless it is there. `None` has no attribute `body`. -/
def createResponse : Option Response → Res Reply
  | none => .error .attrErr
  | some r =>
    match rawHeaders r.headers with
    | .error e => .error e
    | .ok l =>
      .ok (.response r.status
        (if r.body ≠ [] ∧ py! "content-length" ∉ l.map Prod.fst then l ++ [(py! "content-length", decimal r.body.length)] else l)
        r.body)

/-- `RedirectResponse(url, 303)` of the framework. -/
def redirectTo (url : PyStr) : Res Reply :=
  match quotePlus locSafe url with
  | .error e => .error e
  | .ok loc => .ok (.response 303 [(py! "location", loc)] [])

/-! ## Programs of the web layer -/

/-- The operations of views and middleware, besides those of the library. -/
inductive WOp
  | lib (o : Op)
  /-- `Session.get_or_none(id=..., user_id=...).prefetch_related("user")`. -/
  | session (sessionId userId : PyStr)
  /-- `User.filter(email=...).first()`. -/
  | userByEmail (email : PyStr)
  /-- `Session.filter(user_id=...).first()`. -/
  | sessionOf (userId : PyStr)
  /-- The random choices of `secret_token(32)`. -/
  | choices32
  /-- `Session(id=..., user_id=...).save()`. -/
  | saveSession (sessionId userId : PyStr)
  /-- `RefreshToken.filter(user_id=...).delete()`. -/
  | deleteRefresh (userId : PyStr)
  /-- `Session.filter(user_id=...).delete()`. -/
  | deleteSessions (userId : PyStr)
  /-- Which of two tasks of `asyncio.gather` takes effect first. -/
  | pick

/-- Type of the answer. A user that logs in has an id and a password; a session may lack its user. -/
@[reducible] def WOp.Ans : WOp → Type
  | .lib o => o.Ans
  | .session .. => Option (Option User)
  | .userByEmail _ => Option (PyStr × PyStr)
  | .sessionOf _ => Option PyStr
  | .choices32 => { l : List (Fin 64) // l.length = 32 }
  | .saveSession .. => Unit
  | .deleteRefresh _ => Unit
  | .deleteSessions _ => Unit
  | .pick => Bool

/-- A coroutine of the web layer. -/
inductive WProg (α : Type)
  | done (a : α)
  | op (o : WOp) (k : ORes o.Ans → WProg α)

/-- Sequential composition. -/
def WProg.bind {α β : Type} : WProg α → (α → WProg β) → WProg β
  | .done a, f => f a
  | .op o k, f => .op o (fun r => (k r).bind f)

/-- A coroutine that returns a value or raises. -/
abbrev WP (α : Type) := WProg (ORes α)

namespace WP

/-- `x = await p; ...`. -/
def bind {α β : Type} (p : WP α) (f : α → WP β) : WP β :=
  WProg.bind p (fun r => match r with | .ok a => f a | .error e => .done (.error e))

/-- `await operation`. -/
def call (o : WOp) : WP o.Ans := .op o .done

/-- A call of a function that does not wait. -/
def lift {α : Type} (r : Res α) : WP α := .done (liftRes r)

/-- A call of a coroutine of the library. -/
def lib {α : Type} : P α → WP α
  | .done a => .done a
  | .op o k => .op (.lib o) (fun r => lib (k r))

end WP

/-! ## Views -/

/-- A reply that leaves the session alone. -/
def served (r : Res Reply) : WP Served := WP.lift (r.map (fun reply => ⟨reply, none⟩))

/-- `request.url_for("home")`. -/
def homeUrl (req : WebRequest) : PyStr := req.site ++ py! "/"

/-- `request.url_for("auth:login")`. -/
def loginUrl (req : WebRequest) : PyStr := req.site ++ py! "/auth/login"

/-- `request.url_for("auth:logout")`. -/
def logoutUrl (req : WebRequest) : PyStr := req.site ++ py! "/auth/logout"

/-- `parse_qsl(query, keep_blank_values=True)` of the framework. -/
def parsePairBlank (nv : PyStr) : Option (PyStr × PyStr) :=
  if nv = [] then none
  else
    match splitOnce 61 nv with
    | none => some (unquotePlus nv, [])
    | some (n, v) => some (unquotePlus n, unquotePlus v)

/-- `request.query_params`: of several parameters with the same name, the last one counts. -/
def queryParams (req : WebRequest) : Dict PyStr PyStr := Dict.ofPairs ((splitOn 38 req.query).filterMap parsePairBlank)

/-- `DataRequired`: not empty and not only white space. -/
def filledIn (s : PyStr) : Bool := s.any (fun c => !isPySpace c)

/-- `form.validate_on_submit()`, `/repo/example/forms/login.py:5-24`. Which addresses the validator `Email` accepts is left open
(`emailOk`). -/
def LoginForm.valid (emailOk : PyStr → Bool) (f : LoginForm) : Bool :=
  f.csrf && filledIn f.email && emailOk f.email && filledIn f.password &&
    decide (8 ≤ f.password.length ∧ f.password.length ≤ 64)

/-- Where the user goes after logging in, `/repo/example/views/auth.py:91`. -/
def afterLogin (req : WebRequest) : PyStr :=
  match Dict.get (queryParams req) (py! "next") with
  | some (c :: s) => c :: s
  | _ => homeUrl req

/-- The end of the login, `/repo/example/views/auth.py:86-93`: the cookie is set and the user is redirected. -/
def loggedIn (req : WebRequest) (userId sessionId : PyStr) : WP Served :=
  WP.lift ((redirectTo (afterLogin req)).map (fun reply => ⟨reply, some ⟨userId, sessionId⟩⟩))

/-- `LoginView.post`, `/repo/example/views/auth.py:37-93`. -/
def loginPost (emailOk : PyStr → Bool) (req : WebRequest) (user : Option User) : WP Served :=
  match user with
  | some _ => served (redirectTo (homeUrl req))
  | none =>
    if !req.form.valid emailOk then served (.ok (.page .login))
    else
      (WP.call (.userByEmail req.form.email)).bind fun found =>
        match found with
        | none => served (.ok (.page .invalidCredentials))
        | some (userId, password) =>
          if password ≠ req.form.password then served (.ok (.page .invalidCredentials))
          else
            (WP.call (.sessionOf userId)).bind fun session =>
              match session with
              | some sessionId => loggedIn req userId sessionId
              | none =>
                (WP.call .choices32).bind fun choices =>
                  (WP.lift (secretToken choices.val)).bind fun sessionId =>
                    (WP.call (.saveSession sessionId userId)).bind fun _ => loggedIn req userId sessionId

/-- `LoginView.get`, `/repo/example/views/auth.py:21-35`. -/
def loginGet (req : WebRequest) (user : Option User) : WP Served :=
  match user with
  | some _ => served (redirectTo (homeUrl req))
  | none => served (.ok (.page .login))

/-- `asyncio.gather(first, second)`: both tasks run, in either order, also if one of them fails. An exception of either is raised. -/
def both (first second : WP Unit) : WP Unit :=
  WProg.bind first fun r => WProg.bind second fun s => .done (match r with | .error e => .error e | .ok _ => s)

/-- `LogoutView.get`, `/repo/example/views/auth.py:97-108`. A user is only present together with a session cookie. -/
def logoutGet (req : WebRequest) (user : Option User) : WP Served :=
  match user with
  | none => served (redirectTo (loginUrl req))
  | some _ =>
    match req.cookie with
    | none => WP.lift (.error .keyErr)
    | some c =>
      (WP.call .pick).bind fun b =>
        (if b then both (WP.call (.deleteRefresh c.userId)) (WP.call (.deleteSessions c.userId))
          else both (WP.call (.deleteSessions c.userId)) (WP.call (.deleteRefresh c.userId))).bind fun _ =>
          served (redirectTo (loginUrl req))

/-- `AuthorizationEndpoint.get`, `/repo/example/views/connect.py:16-23`. -/
def authorizeGet (env : OEnv) (table : Hooks) (req : WebRequest) (user : Option User) : WP Served :=
  match user with
  | none =>
    match urlencode (loginUrl req) [(py! "next", some req.url)] with
    | .error e => WP.lift (.error e)
    | .ok url => served (redirectTo url)
  | some u =>
    (WP.lift (createRequest req (some u))).bind fun r =>
      (WP.lib (exProvider.authorize env table r)).bind fun response => served (createResponse (some response))

/-- `TokenEndpoint.post`, `/repo/example/views/connect.py:50-53`. -/
def tokenPost (env : OEnv) (table : Hooks) (req : WebRequest) (user : Option User) : WP Served :=
  (WP.lift (createRequest req user)).bind fun r =>
    (WP.lib (exProvider.token env table r)).bind fun response => served (createResponse (some response))

/-- `RevocationEndpoint.post`, `/repo/example/views/connect.py:43-46`. -/
def revokePost (env : OEnv) (req : WebRequest) (user : Option User) : WP Served :=
  (WP.lift (createRequest req user)).bind fun r =>
    (WP.lib (exProvider.revoke env r)).bind fun response => served (createResponse response)

/-- `HTTPEndpoint.dispatch` of the framework: `HEAD` is served like `GET`. -/
def isGet (req : WebRequest) : Bool := decide (req.method = py! "GET" ∨ req.method = py! "HEAD")

/-- A `POST` request. -/
def isPost (req : WebRequest) : Bool := decide (req.method = py! "POST")

/-- The view of a route. -/
def view (env : OEnv) (table : Hooks) (emailOk : PyStr → Bool) (req : WebRequest) (user : Option User) : WP Served :=
  match req.route with
  | .home => served (.ok (.page (if isGet req then .home else .methodNotAllowed)))
  | .login =>
    if isGet req then loginGet req user
    else if isPost req then loginPost emailOk req user else served (.ok (.page .methodNotAllowed))
  | .logout =>
    if isGet req then logoutGet req user
    else if isPost req then served (redirectTo (logoutUrl req)) else served (.ok (.page .methodNotAllowed))
  | .authorize => if isGet req then authorizeGet env table req user else served (.ok (.page .methodNotAllowed))
  | .error => served (.ok (.page (if isGet req then .error else .methodNotAllowed)))
  | .revoke => if isPost req then revokePost env req user else served (.ok (.page .methodNotAllowed))
  | .token => if isPost req then tokenPost env table req user else served (.ok (.page .methodNotAllowed))

/-- The application: `SessionAuthBackend.authenticate`, `/repo/example/middlewares/authentication.py:12-29`, then the view. An
`AuthenticationError` is answered by the framework. -/
def app (env : OEnv) (table : Hooks) (emailOk : PyStr → Bool) (req : WebRequest) : WP Served :=
  match req.cookie with
  | none => view env table emailOk req none
  | some c =>
    (WP.call (.session c.sessionId c.userId)).bind fun data =>
      match data with
      | none => view env table emailOk req none
      | some none => served (.ok (.page .badRequest))
      | some (some u) => view env table emailOk req (some u)

/-! ## Executions and histories -/

/-- One performed operation with its answer. -/
structure WEv where
  op : WOp
  ans : ORes op.Ans

/-- The coroutine can perform exactly these operations and then ends with `a`. -/
inductive WExec {α : Type} : WProg α → List WEv → α → Prop
  | done (a : α) : WExec (.done a) [] a
  | op (o : WOp) (k : ORes o.Ans → WProg α) (r : ORes o.Ans) (tr : List WEv) (a : α) :
      WExec (k r) tr a → WExec (.op o k) (⟨o, r⟩ :: tr) a

/-- The coroutine can have performed these operations so far. -/
inductive WPartial {α : Type} : WProg α → List WEv → Prop
  | here (p : WProg α) : WPartial p []
  | op (o : WOp) (k : ORes o.Ans → WProg α) (r : ORes o.Ans) (tr : List WEv) :
      WPartial (k r) tr → WPartial (.op o k) (⟨o, r⟩ :: tr)

/-- An operation in a history: the number of the request, and what it did. -/
abbrev WStep := Nat × WEv

/-- The operations of the request number `i`. -/
def ofWeb (i : Nat) (h : List WStep) : List WEv := h.filterMap (fun s => if s.1 = i then some s.2 else none)

/-- A history of the web requests `reqs`, in any interleaving, each as far as it gets. -/
def WHistory (env : OEnv) (table : Hooks) (emailOk : PyStr → Bool) (reqs : Nat → WebRequest) (h : List WStep) : Prop :=
  ∀ i, WPartial (app env table emailOk (reqs i)) (ofWeb i h)

/-- The database with the table `sessions`: session id and user id, `/repo/example/models/sessions.py`. -/
structure WStore where
  db : Store
  sessions : List (PyStr × PyStr)

/-- The operations. -/
def wOp (env : OEnv) (d : Draw) (w : WStore) : (o : WOp) → WStore × ORes o.Ans
  | .lib o => ({ w with db := (exOp env d w.db o).1 }, (exOp env d w.db o).2)
  | .session sid uid =>
    (w, .ok (if (sid, uid) ∈ w.sessions then some ((w.db.findUser uid).map UserRow.user) else none))
  | .userByEmail email => (w, .ok ((w.db.users.find? (fun u => decide (u.email = email))).map (fun u => (u.id, u.password))))
  | .sessionOf uid => (w, .ok ((w.sessions.find? (fun s => decide (s.2 = uid))).map Prod.fst))
  | .choices32 => (w, .ok d.choices32)
  | .saveSession sid uid =>
    if sid.length ≤ 32 ∧ sid ∉ w.sessions.map Prod.fst ∧ (w.db.findUser uid).isSome then
      ({ w with sessions := (sid, uid) :: w.sessions }, .ok ())
    else (w, dbError)
  | .deleteRefresh uid => ({ w with db := logout w.db uid }, .ok ())
  | .deleteSessions uid => ({ w with sessions := w.sessions.filter (fun s => decide (s.2 ≠ uid)) }, .ok ())
  | .pick => (w, .ok (decide (d.seed % 2 = 0)))

/-- One operation of a request: it succeeds or fails as above; or the database fails or the task is cancelled, before or after the
effect took place. -/
def WEffect (env : OEnv) (w : WStore) (ev : WEv) (w' : WStore) : Prop :=
  ∃ d, wOp env d w ev.op = (w', ev.ans) ∨
    (∃ n, ev.ans = .error (.py (.ext n))) ∧ (w' = w ∨ w' = (wOp env d w ev.op).1)

/-- What administration may do: change users and clients, and remove codes, refresh tokens and sessions. -/
structure WOutside (w w' : WStore) : Prop where
  db : Outside w.db w'.db
  sessions : w'.sessions.Sublist w.sessions

/-- A history of the application between two states of the database. -/
inductive WRun (env : OEnv) : WStore → List WStep → WStore → Prop
  | nil (w : WStore) : WRun env w [] w
  | step (w w' w'' : WStore) (i : Nat) (ev : WEv) (h : List WStep) :
      WEffect env w ev w' → WRun env w' h w'' → WRun env w ((i, ev) :: h) w''
  | outside (w w' w'' : WStore) (h : List WStep) : WOutside w w' → WRun env w' h w'' → WRun env w h w''

end Psion.Example
