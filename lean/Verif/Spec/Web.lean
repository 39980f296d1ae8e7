import Verif.Example.Web

/-!
# Vocabulary for the properties of the web layer of the example application
-/

namespace Psion.Spec

open Psion Example

/-- The request number `j` is a login with the password of the user: it posts the login form, and the database has answered that
the account with the e-mail address of the form has this user id and the password of the form. -/
structure PasswordLogin (reqs : Nat → WebRequest) (h : List WStep) (j : Nat) (userId : PyStr) : Prop where
  route : (reqs j).route = .login
  method : (reqs j).method = py! "POST"
  password : (j, (⟨.userByEmail (reqs j).form.email, .ok (some (userId, (reqs j).form.password))⟩ : WEv)) ∈ h

/-- A login form that is filled in as the page demands, `/repo/example/forms/login.py:5-24`: the token of the page against
cross-site requests, an e-mail address, and a password of 8 to 64 characters, neither of them blank. -/
structure GoodForm (emailOk : PyStr → Bool) (f : LoginForm) : Prop where
  csrf : f.csrf = true
  email : (∃ c ∈ f.email, isPySpace c = false) ∧ emailOk f.email = true
  password : (∃ c ∈ f.password, isPySpace c = false) ∧ 8 ≤ f.password.length ∧ f.password.length ≤ 64

/-- The middleware has recognised the user `u` in the request number `i`. -/
structure Recognised (reqs : Nat → WebRequest) (h : List WStep) (i : Nat) (sessionId : PyStr) (u : User) : Prop where
  cookie : (reqs i).cookie = some ⟨u.userId, sessionId⟩
  found : (i, (⟨.session sessionId u.userId, .ok (some (some u))⟩ : WEv)) ∈ h

/-- The session was created by a login with the password of the user, and since then no logout of the user was carried out. -/
def LiveSession (reqs : Nat → WebRequest) (h : List WStep) (sessionId userId : PyStr) : Prop :=
  ∃ a j ans b, h = a ++ (j, ⟨.saveSession sessionId userId, ans⟩) :: b ∧ PasswordLogin reqs a j userId ∧
    ∀ k, (k, (⟨.deleteSessions userId, .ok ()⟩ : WEv)) ∉ b

/-- The operations of the library. -/
def libOf (tr : List WEv) : List Ev := tr.filterMap fun
  | ⟨.lib o, ans⟩ => some ⟨o, ans⟩
  | _ => none

/-- The operations of the library in a history. -/
def libSteps (h : List WStep) : List Step := h.filterMap fun
  | (i, ⟨.lib o, ans⟩) => some (i, ⟨o, ans⟩)
  | _ => none

/-- The browser of the user has asked for an authorization: the request number `j` to the authorization endpoint was recognised, by
a session that was alive at that moment, as one of the user `u`, and then it has stored a code for the client `c` and the scopes
`ws`. -/
structure BrowserAuthorization (reqs : Nat → WebRequest) (h : List WStep) (j : Nat) (sid : PyStr) (c : Client) (u : User)
    (ws : List PyStr) (a b : List WStep) : Prop where
  split : h = a ++ (j, ⟨.session sid u.userId, .ok (some (some u))⟩) :: b
  route : (reqs j).route = .authorize
  cookie : (reqs j).cookie = some ⟨u.userId, sid⟩
  live : LiveSession reqs a sid u.userId
  saved : ∃ r code data ans, createRequest (reqs j) (some u) = .ok r ∧
    (j, (⟨.lib (.saveCode code data c u), ans⟩ : WEv)) ∈ b ∧
    Authorizes exProvider r (ofRequest j (libSteps h)) c u data ∧ Dict.get data (py! "scopes") = some (strList ws)

/-- What an endpoint of the library does with a request, and how it ends: with a response, with `None`, or with an exception. -/
inductive LibraryEnds (env : OEnv) (table : Hooks) : Route → Request → List Ev → ORes (Option Response) → Prop
  | authorized (r : Request) (tr : List Ev) (response : Response) :
      Exec (exProvider.authorize env table r) tr (.ok response) → LibraryEnds env table .authorize r tr (.ok (some response))
  | notAuthorized (r : Request) (tr : List Ev) (e : OExc) :
      Exec (exProvider.authorize env table r) tr (.error e) → LibraryEnds env table .authorize r tr (.error e)
  | token (r : Request) (tr : List Ev) (response : Response) :
      Exec (exProvider.token env table r) tr (.ok response) → LibraryEnds env table .token r tr (.ok (some response))
  | noToken (r : Request) (tr : List Ev) (e : OExc) :
      Exec (exProvider.token env table r) tr (.error e) → LibraryEnds env table .token r tr (.error e)
  | revoke (r : Request) (tr : List Ev) (out : ORes (Option Response)) :
      Exec (exProvider.revoke env r) tr out → LibraryEnds env table .revoke r tr out

/-- The library sees the request as it arrived: method, parameters of the URL and body, the user that was recognised, and for every
name the first header with this name. -/
structure ArrivesAs (req : WebRequest) (user : Option User) (r : Request) : Prop where
  method : r.method = req.method
  query : r.query = urldecode (urlQuery req.url)
  body : r.body = some req.body
  user : r.user = user
  headers : ∀ k, Dict.get r.headers k = (req.headers.find? (fun kv => decide (kv.1 = k))).map Prod.snd

/-- A response of the library reaches the browser: with its status, its body, all of its headers, their names in lower case, and
the length of the body. -/
def PassedOn (r : Response) (reply : Reply) : Prop :=
  ∃ hs extra, reply = .response r.status (hs ++ extra) r.body ∧
    hs.map (fun kv => (kv.1, some kv.2)) = r.headers.map (fun kv => (asciiLower kv.1, kv.2)) ∧
    (extra = [] ∨ extra = [(py! "content-length", intStr r.body.length)]) ∧
    (r.body ≠ [] → py! "content-length" ∈ (hs ++ extra).map Prod.fst)

/-- All headers of the response can be sent. -/
def SendableHeaders (r : Response) : Prop :=
  ∀ k v, (k, v) ∈ r.headers → (∀ c ∈ k, c < 256) ∧ ∃ t, v = some t ∧ ∀ c ∈ t, c < 256

/-- The user that the middleware has recognised in the request, if any. -/
def UserOf (req : WebRequest) (tr : List WEv) : Option User → Prop
  | some u => ∃ c, req.cookie = some c ∧ (⟨.session c.sessionId c.userId, .ok (some (some u))⟩ : WEv) ∈ tr
  | none => ∀ sid uid x, (⟨.session sid uid, .ok (some x)⟩ : WEv) ∉ tr

/-- A single request runs while nothing else happens and the database works. -/
inductive RunsAlone (env : OEnv) : WStore → List WEv → WStore → Prop
  | nil (w : WStore) : RunsAlone env w [] w
  | step (w w' w'' : WStore) (d : Draw) (ev : WEv) (tr : List WEv) :
      wOp env d w ev.op = (w', ev.ans) → RunsAlone env w' tr w'' → RunsAlone env w (ev :: tr) w''

end Psion.Spec
