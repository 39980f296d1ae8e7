import Verif.Example.WebSim
import Verif.Props.ToyExample

/-!
# The web layer of the example application: concrete requests

Used in `example`s and counterexamples only.
-/

namespace Psion.Props

open Psion Spec Example

/-- The address of the application. -/
def webSite : PyStr := py! "http://localhost:8000"

/-- A request without cookie, body and headers. -/
def webGet (route : Route) (path query : PyStr) (cookie : Option Cookie) : WebRequest where
  route
  method := py! "GET"
  site := webSite
  url := if query = [] then webSite ++ path else webSite ++ path ++ py! "?" ++ query
  query
  headers := []
  body := []
  form := ⟨[], [], false⟩
  cookie

/-- A login, with this query string. -/
def webLogin (query password : PyStr) : WebRequest :=
  { webGet .login (py! "/auth/login") query none with
    method := py! "POST", form := ⟨py! "ann@example.org", password, true⟩ }

/-- The session that is created with `exDraw 2`. -/
def webCookie : Cookie := ⟨py! "u1", List.replicate 32 99⟩

/-- The parameters of an authorization request. -/
def webParams : PyStr :=
  py! "response_type=code&client_id=c1&redirect_uri=https://c/cb&scope=openid&state=s&code_challenge=" ++ toyVerifier ++
    py! "&code_challenge_method=plain&nonce=n"

/-- An authorization request of the logged-in user. -/
def webAuthorize : WebRequest := webGet .authorize (py! "/connect/authorize") webParams (some webCookie)

/-- A logout. -/
def webLogout : WebRequest := webGet .logout (py! "/auth/logout") [] (some webCookie)

/-- The exchange of the code by the client. -/
def webExchange : WebRequest :=
  { webGet .token (py! "/connect/token") [] none with
    method := py! "POST"
    headers := [(py! "authorization", py! "Basic YzE6czM=")]
    body := by! "grant_type=authorization_code&redirect_uri=https://c/cb&code_verifier=aaaaaaaaaaaaaaaaaaaaaaaaaaaaaaaaaaaaaaaaaaa&code=" ++ exCode }

/-- A login, an authorization, a logout, and the exchange of the code. -/
def webReqs : Nat → WebRequest
  | 0 => webLogin [] (py! "correct horse")
  | 1 => webAuthorize
  | 2 => webLogout
  | _ => webExchange

/-- A simulation from a database without sessions, codes and refresh tokens. -/
def webSim (reqs : Nat → WebRequest) (l : List (Nat × Draw)) : List WStep × WStore × (Nat → WProg (ORes Served)) :=
  wsim toyEnv l ⟨exStore, []⟩ (fun i => app toyEnv (exHooks toyEnv) (fun _ => true) (reqs i))

theorem webSim_history (reqs : Nat → WebRequest) (l : List (Nat × Draw)) :
    WHistory toyEnv (exHooks toyEnv) (fun _ => true) reqs (webSim reqs l).1 :=
  fun i => (wsim_exec toyEnv l ⟨exStore, []⟩ (fun i => app toyEnv (exHooks toyEnv) (fun _ => true) (reqs i)) i).2

theorem webSim_run (reqs : Nat → WebRequest) (l : List (Nat × Draw)) :
    WRun toyEnv ⟨exStore, []⟩ (webSim reqs l).1 (webSim reqs l).2.1 := wsim_run _ _ _ _

/-- The status of the response, if the request is finished with one. -/
def webStatus : WProg (ORes Served) → Option Nat
  | .done (.ok ⟨.response n _ _, _⟩) => some n
  | _ => none

/-- The outcome of a request that is finished without exception. -/
def webServed : WProg (ORes Served) → Option Served
  | .done (.ok sv) => some sv
  | _ => none

/-- Tests for events. -/
def recognises (uid : PyStr) : WEv → Bool
  | ⟨.session _ i, .ok (some (some u))⟩ => decide (i = uid ∧ u.userId = uid)
  | _ => false

/-- Does the event delete the sessions of the user? -/
def endsSessions (uid : PyStr) : WEv → Bool
  | ⟨.deleteSessions i, .ok ()⟩ => decide (i = uid)
  | _ => false

/-- Does the event delete the refresh tokens of the user? -/
def endsRefresh (uid : PyStr) : WEv → Bool
  | ⟨.deleteRefresh i, .ok ()⟩ => decide (i = uid)
  | _ => false

/-- Does the event save a session? -/
def savesSession : WEv → Bool
  | ⟨.saveSession .., _⟩ => true
  | _ => false

/-- Does the event create an access token for the user? -/
def accessFor (uid : PyStr) : WEv → Bool
  | ⟨.lib (.createAccess _ (.user (some u)) _), .ok _⟩ => decide (u.userId = uid)
  | _ => false

/-- Does the event create a refresh token for the user? -/
def refreshFor (uid : PyStr) : WEv → Bool
  | ⟨.lib (.createRefresh _ (some u) _), .ok _⟩ => decide (u.userId = uid)
  | _ => false

/-- The schedule: login, authorization, logout, exchange, one after the other. -/
def webStory : List (Nat × Draw) := exTurn 0 4 2 ++ exTurn 1 4 0 ++ exTurn 2 4 0 ++ exTurn 3 13 1

theorem any_event {p : WEv → Bool} {i : Nat} {h : List WStep} (hp : (ofWeb i h).any p = true) :
    ∃ o ans, (i, (⟨o, ans⟩ : WEv)) ∈ h ∧ p ⟨o, ans⟩ = true := by
  obtain ⟨⟨o, ans⟩, h1, h2⟩ := List.any_eq_true.mp hp
  exact ⟨o, ans, mem_ofWeb.mp h1, h2⟩

theorem any_endsSessions {uid : PyStr} {i : Nat} {h : List WStep} (hp : (ofWeb i h).any (endsSessions uid) = true) :
    (i, (⟨.deleteSessions uid, .ok ()⟩ : WEv)) ∈ h := by
  obtain ⟨o, ans, hm, ht⟩ := any_event hp
  cases o with
  | deleteSessions x =>
    cases ans with
    | ok a => cases a; cases of_decide_eq_true ht; exact hm
    | error e => cases ht
  | _ => cases ht

theorem any_endsRefresh {uid : PyStr} {i : Nat} {h : List WStep} (hp : (ofWeb i h).any (endsRefresh uid) = true) :
    (i, (⟨.deleteRefresh uid, .ok ()⟩ : WEv)) ∈ h := by
  obtain ⟨o, ans, hm, ht⟩ := any_event hp
  cases o with
  | deleteRefresh x =>
    cases ans with
    | ok a => cases a; cases of_decide_eq_true ht; exact hm
    | error e => cases ht
  | _ => cases ht

theorem any_recognises {uid : PyStr} {i : Nat} {h : List WStep} (hp : (ofWeb i h).any (recognises uid) = true) :
    ∃ sid, (i, (⟨.session sid uid, .ok (some (some ⟨uid⟩))⟩ : WEv)) ∈ h := by
  obtain ⟨o, ans, hm, ht⟩ := any_event hp
  cases o with
  | session sid x =>
    cases ans with
    | ok a =>
      cases a with
      | none => cases ht
      | some a =>
        cases a with
        | none => cases ht
        | some u =>
          obtain ⟨u⟩ := u
          obtain ⟨rfl, rfl⟩ := of_decide_eq_true ht
          exact ⟨sid, hm⟩
    | error e => cases ht
  | _ => cases ht

theorem any_accessFor {uid : PyStr} {i : Nat} {h : List WStep} (hp : (ofWeb i h).any (accessFor uid) = true) :
    ∃ c scopes token, (i, (⟨.lib (.createAccess c (.user (some ⟨uid⟩)) scopes), .ok token⟩ : WEv)) ∈ h := by
  obtain ⟨o, ans, hm, ht⟩ := any_event hp
  cases o with
  | lib o =>
    cases o with
    | createAccess c owner scopes =>
      cases ans with
      | error e => cases owner with
        | client c => cases ht
        | user u => cases u <;> cases ht
      | ok token =>
        cases owner with
        | client c => cases ht
        | user u =>
          cases u with
          | none => cases ht
          | some u =>
            obtain ⟨u⟩ := u
            cases of_decide_eq_true ht
            exact ⟨c, scopes, token, hm⟩
    | _ => cases ht
  | _ => cases ht

theorem any_refreshFor {uid : PyStr} {i : Nat} {h : List WStep} (hp : (ofWeb i h).any (refreshFor uid) = true) :
    ∃ c scopes token, (i, (⟨.lib (.createRefresh c (some ⟨uid⟩) scopes), .ok token⟩ : WEv)) ∈ h := by
  obtain ⟨o, ans, hm, ht⟩ := any_event hp
  cases o with
  | lib o =>
    cases o with
    | createRefresh c u scopes =>
      cases ans with
      | error e => cases u <;> cases ht
      | ok token =>
        cases u with
        | none => cases ht
        | some u =>
          obtain ⟨u⟩ := u
          cases of_decide_eq_true ht
          exact ⟨c, scopes, token, hm⟩
    | _ => cases ht
  | _ => cases ht

theorem webStatus_exec {reqs : Nat → WebRequest} {l : List (Nat × Draw)} {i n : Nat}
    (h : webStatus ((webSim reqs l).2.2 i) = some n) : ∃ headers body cookie,
      WExec (app toyEnv (exHooks toyEnv) (fun _ => true) (reqs i)) (ofWeb i (webSim reqs l).1)
        (.ok ⟨.response n headers body, cookie⟩) := by
  unfold webStatus at h
  split at h
  · rename_i hd
    cases h
    exact ⟨_, _, _, wsim_outcome (ps := fun i => app toyEnv (exHooks toyEnv) (fun _ => true) (reqs i)) (by
      show woutcome ((webSim reqs l).2.2 i) = _
      rw [hd]; rfl)⟩
  · cases h

end Psion.Props
