import Verif.Props.Auth
import Verif.OAuth.Provider

/-!
# A concrete adapter for the OAuth half

Used in `example`s and counterexamples only: an adapter with one client, one user, one authorization code and one refresh
token, at the time 100.
-/

namespace Psion.Props

open Psion

/-- The only user. -/
def toyUser : User := ⟨py! "u1"⟩

/-- A verifier of 43 characters. -/
def toyVerifier : PyStr := List.replicate 43 97

/-- A code of the client `c1` for the user `u1`, with a challenge of the method `plain`. -/
def toyCode (scopes : List PyStr) : AuthCode where
  clientId := py! "c1"
  userId := py! "u1"
  redirectUri := py! "https://c/cb"
  scopes := scopes
  challenge := toyVerifier
  challengeMethod := py! "plain"
  nonce := none
  expiration := 200

/-- A refresh token of the client `c1` for the user `u1`. -/
def toyRefresh (scopes : List PyStr) : RefreshTok where
  token := py! "r1"
  clientId := py! "c1"
  userId := py! "u1"
  scopes := scopes
  expiration := 200

/-- An adapter with these objects. The code `abc` and the refresh token `r1` have the given scopes. -/
def toyAdapter (client : Client) (code : AuthCode) (refresh : RefreshTok) : List Ev → (o : Op) → ORes o.Ans
  | _, .findUser id => .ok (if id = toyUser.userId then some toyUser else none)
  | _, .findClient id => .ok (if id = client.clientId then some client else none)
  | _, .saveCode .. => .ok ()
  | _, .getCode v => .ok (if v.pyEq (.str (py! "abc")) then some code else none)
  | _, .deleteCode _ => .ok ()
  | _, .createAccess .. => .ok (py! "at1")
  | _, .createRefresh .. => .ok (py! "rt1")
  | _, .getRefresh t => .ok (if t = refresh.token then some refresh else none)
  | _, .revoke .. => .ok ()
  | _, .getUserinfo .. => .ok [(py! "sub", .str (py! "u1"))]
  | _, .getKeyInfo => .error (.py (.ext 0))
  | _, .now => .ok 100
  | _, .stamp => .ok 100
  | _, .choices64 => .ok ⟨List.replicate 64 0, by simp⟩
  | _, .seed => .ok 0

/-- The configuration of the toy provider. -/
def toyConfig : Config where
  issuer := py! "https://s"
  scopes := [py! "openid", py! "read", py! "write"]
  tokenLifespan := 3600
  idTokenLifespan := 600
  errorUrl := py! "https://s/error"

/-- A provider with all grants. -/
def toyProvider : Provider := ⟨toyConfig, [.authorizationCode, .clientCredentials, .refreshToken]⟩

/-- A POST request with the credentials `c1:s3` in a Basic header. -/
def toyPost (body : Bytes) : Request where
  method := py! "POST"
  query := []
  headers := [(py! "authorization", py! "Basic YzE6czM=")]
  body := some body
  user := none

/-- A valid exchange of the code. -/
def toyExchange : Request := toyPost
  (by! "grant_type=authorization_code&code=abc&redirect_uri=https://c/cb&code_verifier=aaaaaaaaaaaaaaaaaaaaaaaaaaaaaaaaaaaaaaaaaaa")

/-- A valid refresh request for less scopes. -/
def toyRefreshRequest : Request := toyPost (by! "grant_type=refresh_token&refresh_token=r1&scope=read")

/-- A valid request of the client credentials grant. -/
def toyCredentials : Request := toyPost (by! "grant_type=client_credentials&scope=write+read")

/-- The adapter with the usual objects. -/
def toyUsual : List Ev → (o : Op) → ORes o.Ans :=
  toyAdapter toyClient (toyCode [py! "openid", py! "read"]) (toyRefresh [py! "read", py! "write"])

/-- Does the event create an access token for `scopes`? -/
def createsAccess (scopes : List PyStr) : Ev → Bool
  | ⟨.createAccess _ _ s, _⟩ => decide (s = scopes)
  | _ => false

/-- Does the event create a refresh token? -/
def createsRefresh : Ev → Bool
  | ⟨.createRefresh .., _⟩ => true
  | _ => false

/-- Does the event delete the code? -/
def deletesCode (code : PyStr) : Ev → Bool
  | ⟨.deleteCode v, _⟩ => v.pyEq (.str code)
  | _ => false

/-- Is the outcome a response with this status and body? -/
def isResponse (status : Nat) (body : Bytes) : ORes Response → Bool
  | .ok r => decide (r.status = status ∧ r.body = body)
  | .error _ => false

/-- A run of the token endpoint of the toy provider. -/
def toyRun (orc : List Ev → (o : Op) → ORes o.Ans) (req : Request) : List Ev × ORes Response :=
  Prog.run orc [] (toyProvider.token toyEnv Hooks.empty req)

theorem toyRun_exec (orc : List Ev → (o : Op) → ORes o.Ans) (req : Request) :
    Exec (toyProvider.token toyEnv Hooks.empty req) (toyRun orc req).1 (toyRun orc req).2 := exec_run _ _

example : isResponse 200
    (by! "{\"access_token\": \"at1\", \"token_type\": \"Bearer\", \"expires_in\": 3600, \"refresh_token\": \"rt1\", \"scope\": \"openid read\"}")
    (toyRun toyUsual toyExchange).2 = true := by decide +kernel

example : isResponse 200
    (by! "{\"access_token\": \"at1\", \"token_type\": \"Bearer\", \"expires_in\": 3600, \"refresh_token\": \"rt1\", \"scope\": \"read\"}")
    (toyRun toyUsual toyRefreshRequest).2 = true := by decide +kernel

example : isResponse 200
    (by! "{\"access_token\": \"at1\", \"token_type\": \"Bearer\", \"expires_in\": 3600}")
    (toyRun toyUsual toyCredentials).2 = true := by decide +kernel

/-- An event of a run that satisfies a test, with the rest of the trace. -/
theorem exists_split {l : List Ev} {t : Ev → Bool} (h : l.any t = true) :
    ∃ pre ev post, l = pre ++ ev :: post ∧ t ev = true := by
  obtain ⟨ev, hev, ht⟩ := List.any_eq_true.mp h
  obtain ⟨pre, post, rfl⟩ := List.append_of_mem hev
  exact ⟨pre, ev, post, rfl, ht⟩

/-- Does the event store a code? -/
def savesCode : Ev → Bool
  | ⟨.saveCode .., _⟩ => true
  | _ => false

theorem split_saves {l : List Ev} (h : l.any savesCode = true) :
    ∃ pre post code data c u ans, l = pre ++ ⟨.saveCode code data c u, ans⟩ :: post := by
  obtain ⟨pre, ev, post, heq, ht⟩ := exists_split h
  obtain ⟨o, ans⟩ := ev
  cases o <;> first | (cases ht; done) | exact ⟨pre, post, _, _, _, _, ans, heq⟩

theorem split_creates {l : List Ev} {scopes : List PyStr} (h : l.any (createsAccess scopes) = true) :
    ∃ pre post c owner ans, l = pre ++ ⟨.createAccess c owner scopes, ans⟩ :: post := by
  obtain ⟨pre, ev, post, heq, ht⟩ := exists_split h
  obtain ⟨o, ans⟩ := ev
  cases o with
  | createAccess c owner s =>
    simp only [createsAccess, decide_eq_true_eq] at ht
    subst ht
    exact ⟨pre, post, c, owner, ans, heq⟩
  | _ => cases ht

/-- The hypothesis of the theorems about created tokens is satisfiable: the toy run creates an access token. -/
theorem toy_creates (orc : List Ev → (o : Op) → ORes o.Ans) (req : Request) (scopes : List PyStr)
    (h : (toyRun orc req).1.any (createsAccess scopes) = true) :
    ∃ pre post c owner ans, Partial (toyProvider.token toyEnv Hooks.empty req)
      (pre ++ ⟨.createAccess c owner scopes, ans⟩ :: post) := by
  obtain ⟨pre, post, c, owner, ans, heq⟩ := split_creates h
  have hx := exec_partial (toyRun_exec orc req)
  rw [heq] at hx
  exact ⟨pre, post, c, owner, ans, hx⟩

end Psion.Props
