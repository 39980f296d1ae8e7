import Verif.Spec.Web

/-!
# Vocabulary for the property about whose data a request changes
-/

namespace Psion.Spec

open Psion Example

/-- The request number `i` comes from the client with this id: the application reads it as `q`, has found the client, and the
request presents the id and the secret of the client in the way in which the client is to authenticate. -/
def ClientSent (reqs : Nat → WebRequest) (h : List WStep) (i : Nat) (q : Request) (id : PyStr) : Prop :=
  ∃ user c m, createRequest (reqs i) user = .ok q ∧ (i, (⟨.lib (.findClient id), .ok (some c)⟩ : WEv)) ∈ h ∧ c.clientId = id ∧
    Presents q m id c.secret ∧ c.authMethod = methodName m

/-- The request number `i` comes from the browser of the user with this id: its cookie names the user and a session that was
found. -/
def UserSent (reqs : Nat → WebRequest) (h : List WStep) (i : Nat) (uid : PyStr) : Prop :=
  ∃ sid, Recognised reqs h i sid ⟨uid⟩

/-- How the request number `i`, after the history `h`, may change the database.
* Users and clients stay as they are.
* A session appears for the user whose password was given, and disappears when its user logs out.
* A code appears for the user of the browser that asks for it and for the client that is named; it disappears when an
  authenticated client presents it. Whether this must be the client that the code was made for, is said by `own`.
* A refresh token appears for the client that asks for it and the user of the code or the refresh token that it presents; it
  disappears when its client revokes it or its user logs out. -/
structure Confined (own : Prop) (reqs : Nat → WebRequest) (h : List WStep) (i : Nat) (w w' : WStore) : Prop where
  users : w'.db.users = w.db.users
  clients : w'.db.clients = w.db.clients
  sessionNew : ∀ s ∈ w'.sessions, s ∈ w.sessions ∨ PasswordLogin reqs h i s.2
  sessionGone : ∀ s ∈ w.sessions, s ∈ w'.sessions ∨ (reqs i).route = .logout ∧ UserSent reqs h i s.2
  codeNew : ∀ kv ∈ w'.db.codes, kv ∈ w.db.codes ∨ (reqs i).route = .authorize ∧ UserSent reqs h i kv.2.userId ∧
    ∃ q, createRequest (reqs i) (some ⟨kv.2.userId⟩) = .ok q ∧ Dict.get q.data (py! "client_id") = some kv.2.clientId
  codeGone : ∀ kv ∈ w.db.codes, kv ∈ w'.db.codes ∨ (reqs i).route = .token ∧ ∃ q id, ClientSent reqs h i q id ∧
    Dict.get q.data (py! "code") = some kv.1 ∧ (own → id = kv.2.clientId)
  refreshNew : ∀ r ∈ w'.db.refresh, r ∈ w.db.refresh ∨ (reqs i).route = .token ∧ ∃ q, ClientSent reqs h i q r.clientId ∧
    ((∃ code ac, Dict.get q.data (py! "code") = some code ∧ (i, (⟨.lib (.getCode (.str code)), .ok (some ac)⟩ : WEv)) ∈ h ∧
        ac.clientId = r.clientId ∧ ac.userId = r.userId) ∨
      ∃ token rt, Dict.get q.data (py! "refresh_token") = some token ∧
        (i, (⟨.lib (.getRefresh token), .ok (some rt)⟩ : WEv)) ∈ h ∧ rt.clientId = r.clientId ∧ rt.userId = r.userId)
  refreshGone : ∀ r ∈ w.db.refresh, r ∈ w'.db.refresh ∨
    ((reqs i).route = .revoke ∧ ∃ q, ClientSent reqs h i q r.clientId ∧ Dict.get q.form (py! "token") = some r.token) ∨
    (reqs i).route = .logout ∧ UserSent reqs h i r.userId

/-- A history in which only the requests change the database. -/
inductive OnlyRequests (env : OEnv) : WStore → List WStep → WStore → Prop
  | nil (w : WStore) : OnlyRequests env w [] w
  | step (w w' w'' : WStore) (i : Nat) (ev : WEv) (h : List WStep) :
      WEffect env w ev w' → OnlyRequests env w' h w'' → OnlyRequests env w ((i, ev) :: h) w''

end Psion.Spec
