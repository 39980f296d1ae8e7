import Verif.Example.Web
import Verif.Spec.OAuth

/-!
# Vocabulary for the secrecy of stored secrets and passwords

Two worlds are compared: in the second one, the clients have other secrets and the users other passwords, and everything else is
the same.
-/

namespace Psion.Spec

open Psion Example

/-- The client with another secret, which may depend on the id of the client and the old secret. -/
def otherSecret (σ : PyStr → Option PyStr → Option PyStr) (c : Client) : Client :=
  { c with secret := σ c.clientId c.secret }

/-- The same owner, with another secret if it is a client. -/
def otherOwner (σ : PyStr → Option PyStr → Option PyStr) : Owner → Owner
  | .client c => .client (otherSecret σ c)
  | .user u => .user u

/-- The same operation with the same answer, where all clients have their other secrets. -/
def otherEv (σ : PyStr → Option PyStr → Option PyStr) : Ev → Ev
  | ⟨.findClient id, r⟩ => ⟨.findClient id, r.map (Option.map (otherSecret σ))⟩
  | ⟨.saveCode code data c u, r⟩ => ⟨.saveCode code data (otherSecret σ c) u, r⟩
  | ⟨.createAccess c o l, r⟩ => ⟨.createAccess (otherSecret σ c) (otherOwner σ o) l, r⟩
  | ⟨.createRefresh c u l, r⟩ => ⟨.createRefresh (otherSecret σ c) u l, r⟩
  | ⟨.revoke c t h, r⟩ => ⟨.revoke (otherSecret σ c) t h, r⟩
  | ⟨o, r⟩ => ⟨o, r⟩

/-- A secret that the request presents is right in one world if it is right in the other. -/
def SameGuess (σ : PyStr → Option PyStr → Option PyStr) (req : Request) : Prop :=
  ∀ m id s, Presents req m id s → ∀ cid t, σ cid t = s ↔ t = s

/-- What a consent page is made from, with the other secret. -/
def otherConsent (σ : PyStr → Option PyStr → Option PyStr) : Consent → Consent
  | .data c l => .data (otherSecret σ c) l
  | .redirect r => .redirect r

/-- The hooks treat clients that differ in their secrets alike. -/
structure SecretBlind (σ : PyStr → Option PyStr → Option PyStr) (t : Hooks) : Prop where
  authorizationRequest : ∀ h ∈ t.authorizationRequest, ∀ d tr out, Exec (h d) tr out → Exec (h d) (tr.map (otherEv σ)) out
  authorizationResponse : ∀ h ∈ t.authorizationResponse, ∀ code d c u tr out, Exec (h code d c u) tr out →
    Exec (h code d (otherSecret σ c) u) (tr.map (otherEv σ)) out
  tokenRequest : ∀ h ∈ t.tokenRequest, ∀ d tr out, Exec (h d) tr out → Exec (h d) (tr.map (otherEv σ)) out
  tokenResponse : ∀ h ∈ t.tokenResponse, ∀ token d c u tr out, Exec (h token d c u) tr out →
    Exec (h token d (otherSecret σ c) u) (tr.map (otherEv σ)) out

/-! ## The example application -/

/-- The database with other secrets of clients (`σ`) and other passwords of users (`π`). -/
def otherStore (σ : PyStr → Option PyStr → Option PyStr) (π : PyStr → PyStr → PyStr) (w : WStore) : WStore :=
  { w with db := { w.db with
      clients := w.db.clients.map (fun c => { c with secret := σ c.id c.secret })
      users := w.db.users.map (fun u => { u with password := π u.id u.password }) } }

/-- The same operation with the same answer, where clients have their other secrets and users their other passwords. -/
def otherWEv (σ : PyStr → Option PyStr → Option PyStr) (π : PyStr → PyStr → PyStr) : WEv → WEv
  | ⟨.lib o, r⟩ => ⟨.lib (otherEv σ ⟨o, r⟩).op, (otherEv σ ⟨o, r⟩).ans⟩
  | ⟨.userByEmail e, r⟩ => ⟨.userByEmail e, r.map (Option.map (fun x => (x.1, π x.1 x.2)))⟩
  | ⟨o, r⟩ => ⟨o, r⟩

/-- The secrets and the password that the web request presents are right in one world if they are right in the other. -/
structure SameGuesses (σ : PyStr → Option PyStr → Option PyStr) (π : PyStr → PyStr → PyStr) (req : WebRequest) : Prop where
  secret : ∀ user r, createRequest req user = .ok r → SameGuess σ r
  password : ∀ id p, π id p = req.form.password ↔ p = req.form.password

/-- The client authentication uses these credentials: the Basic header comes first. -/
def Tried (req : Request) (m : AuthMethod) (id : PyStr) (s : Option PyStr) : Prop :=
  Presents req m id s ∧ (m ≠ .basic → ∀ id' s', ¬ Presents req .basic id' s')

/-- The answer of the adapter does not fit: there is no such client, or it has another secret or another method. -/
def Refused (m : AuthMethod) (found : Option Client) (s : Option PyStr) : Prop :=
  ∀ c, found = some c → c.secret ≠ s ∨ c.authMethod ≠ methodName m

/-- Two error responses that differ in `error_description` at most. -/
def AlikeErrors (fe : FloatEnv) (r r' : Response) : Prop :=
  r.status = r'.status ∧ r.headers = r'.headers ∧
    ∃ d d', JsonBody fe r d ∧ JsonBody fe r' d' ∧ ∀ k, k ≠ py! "error_description" → Dict.get d k = Dict.get d' k

end Psion.Spec
