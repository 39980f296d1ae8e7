import Verif.Spec.Web

/-!
# Vocabulary for the property about what a client learns of other clients
-/

namespace Psion.Spec

open Psion Example

/-- The same row, or two rows that both belong to clients other than `me`. -/
def Alike {α : Type} (me : PyStr) (owner : α → PyStr) (a b : α) : Prop := a = b ∨ owner a ≠ me ∧ owner b ≠ me

/-- Two lists of the same length whose members are related one by one. -/
inductive Matched {α β : Type} (R : α → β → Prop) : List α → List β → Prop
  | nil : Matched R [] []
  | cons {a : α} {b : β} {l : List α} {m : List β} : R a b → Matched R l m → Matched R (a :: l) (b :: m)

/-- Two databases with the same users, clients and sessions, and with codes and refresh tokens of the same names; what is stored for
these differs at most where it belongs to clients other than `me`. -/
structure AlikeStores (me : PyStr) (w w' : WStore) : Prop where
  users : w'.db.users = w.db.users
  clients : w'.db.clients = w.db.clients
  sessions : w'.sessions = w.sessions
  codes : Matched (fun a b : PyStr × AuthCode => a.1 = b.1 ∧ Alike me AuthCode.clientId a.2 b.2) w.db.codes w'.db.codes
  refresh : Matched (fun a b : RefreshTok => a.token = b.token ∧ Alike me RefreshTok.clientId a b) w.db.refresh w'.db.refresh

/-- The same operation with the same answer; or a code or a refresh token was found that belongs to clients other than `me`. -/
inductive AlikeEv (me : PyStr) : Ev → Ev → Prop
  | same (e : Ev) : AlikeEv me e e
  | code (v : Val) (a b : AuthCode) : a.clientId ≠ me → b.clientId ≠ me →
      AlikeEv me ⟨.getCode v, .ok (some a)⟩ ⟨.getCode v, .ok (some b)⟩
  | refresh (t : PyStr) (a b : RefreshTok) : a.clientId ≠ me → b.clientId ≠ me →
      AlikeEv me ⟨.getRefresh t, .ok (some a)⟩ ⟨.getRefresh t, .ok (some b)⟩

/-- The same for the operations of the application. -/
inductive AlikeWEv (me : PyStr) : WEv → WEv → Prop
  | same (e : WEv) : AlikeWEv me e e
  | lib (o : Op) (r r' : ORes o.Ans) : AlikeEv me ⟨o, r⟩ ⟨o, r'⟩ → AlikeWEv me ⟨.lib o, r⟩ ⟨.lib o, r'⟩

/-- The same requests, which perform the same operations in the same order, with alike answers. -/
def AlikeHistory (me : PyStr) (h h' : List WStep) : Prop := Matched (fun s t : WStep => s.1 = t.1 ∧ AlikeWEv me s.2 t.2) h h'

/-- The rows that belong to `me`. -/
def ownCodes (me : PyStr) (w : WStore) : List (PyStr × AuthCode) := w.db.codes.filter fun kv => decide (kv.2.clientId = me)

/-- The rows that belong to `me`. -/
def ownRefresh (me : PyStr) (w : WStore) : List RefreshTok := w.db.refresh.filter fun r => decide (r.clientId = me)

/-- Two databases that agree in everything but the codes and the refresh tokens of clients other than `me`. -/
structure SameOwn (me : PyStr) (w w' : WStore) : Prop where
  users : w'.db.users = w.db.users
  clients : w'.db.clients = w.db.clients
  sessions : w'.sessions = w.sessions
  codes : ownCodes me w' = ownCodes me w
  refresh : ownRefresh me w' = ownRefresh me w

/-- The same event; or the same code or refresh token was looked up, with whatever success. -/
inductive SameQuestion : WEv → WEv → Prop
  | same (e : WEv) : SameQuestion e e
  | code (v : Val) (a b : Option AuthCode) : SameQuestion ⟨.lib (.getCode v), .ok a⟩ ⟨.lib (.getCode v), .ok b⟩
  | refresh (t : PyStr) (a b : Option RefreshTok) : SameQuestion ⟨.lib (.getRefresh t), .ok a⟩ ⟨.lib (.getRefresh t), .ok b⟩

/-- The same requests, which perform the same operations in the same order. -/
def SameQuestions (h h' : List WStep) : Prop := Matched (fun s t : WStep => s.1 = t.1 ∧ SameQuestion s.2 t.2) h h'

/-- The requests get the same answers in the database `w2` as those that they get in the course of the history `h`: a history with
the same operations is possible there, and every request that is finished has the same outcome. -/
def AnsweredAlike (env : OEnv) (table : Hooks) (emailOk : PyStr → Bool) (reqs : Nat → WebRequest) (h : List WStep) (w2 : WStore) : Prop :=
  ∃ h2 w2', SameQuestions h h2 ∧ WHistory env table emailOk reqs h2 ∧ WRun env w2 h2 w2' ∧
    ∀ i out, WExec (app env table emailOk (reqs i)) (ofWeb i h) out → WExec (app env table emailOk (reqs i)) (ofWeb i h2) out

/-- Of the clients, only `me` sends requests (with whatever secrets), and no user logs out. -/
structure OnlyClient (me : PyStr) (reqs : Nat → WebRequest) : Prop where
  client : ∀ i user q m id secret, (reqs i).route = .token ∨ (reqs i).route = .revoke → createRequest (reqs i) user = .ok q →
    Presents q m id secret → id = me
  noLogout : ∀ i, (reqs i).route ≠ .logout

end Psion.Spec
