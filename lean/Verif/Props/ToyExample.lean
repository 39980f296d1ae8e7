import Verif.Example.Sim
import Verif.Props.Oidc

/-!
# The example application: a concrete database and concrete requests

Used in `example`s and counterexamples only.
-/

namespace Psion.Props

open Psion Spec Example

/-- A user. -/
def exUser : UserRow where
  id := py! "u1"
  password := py! "correct horse"
  givenName := py! "Ann"
  middleName := none
  familyName := py! "Lee"
  nickname := none
  preferredUsername := some (py! "ann")
  profile := none
  picture := none
  website := none
  email := py! "ann@example.org"
  emailVerified := true
  gender := none
  birthdate := none
  zoneinfo := none
  locale := none
  phoneNumber := none
  phoneNumberVerified := false
  address := .none
  addressWf := trivial
  createdAt := 7
  updatedAt := 8

/-- A client with a secret. -/
def exClient : ClientRow where
  id := py! "c1"
  secret := some (py! "s3")
  scopes := [py! "openid", py! "profile", py! "email"]
  redirectUris := [py! "https://c/cb"]
  authMethod := py! "client_secret_basic"
  grantTypes := [py! "authorization_code", py! "refresh_token"]
  responseTypes := [py! "code"]

/-- A database with one user and one client, and neither codes nor refresh tokens. -/
def exStore : Store := ⟨[exUser], [exClient], [], []⟩

/-- A clock, in microseconds, and dice; `n` is the letter that is drawn. -/
def exDrawAt (now : Int) (n : Fin 64) : Draw where
  now := now
  stamp := 1
  stamp2 := 1
  choices64 := ⟨List.replicate 64 n, by simp⟩
  choices32 := ⟨List.replicate 32 n, by simp⟩
  seed := 0

/-- The same at a fixed time. -/
def exDraw (n : Fin 64) : Draw := exDrawAt 1000000 n

/-- An authorization request of the user for the scope `openid`, with these further parameters. -/
def exAuthorize (more : Dict PyStr PyStr) : Request :=
  toyGet ([(py! "response_type", py! "code"), (py! "client_id", py! "c1"), (py! "redirect_uri", py! "https://c/cb"),
    (py! "scope", py! "openid"), (py! "state", py! "s"), (py! "code_challenge", toyVerifier),
    (py! "code_challenge_method", py! "plain")] ++ more) (some exUser.user)

/-- The exchange of the code `code`. -/
def exExchange (code : Bytes) : Request := toyPost
  (by! "grant_type=authorization_code&redirect_uri=https://c/cb&code_verifier=aaaaaaaaaaaaaaaaaaaaaaaaaaaaaaaaaaaaaaaaaaa&code=" ++ code)

/-- The code drawn by `exDraw 0`, as bytes. -/
def exCode : Bytes := List.replicate 64 97

/-- An authorization (request 0), then two exchanges of the same code (requests 1 and 2). -/
def exCalls : Nat → Call
  | 0 => .authorize exProvider (exAuthorize [(py! "nonce", py! "n")])
  | _ => .token exProvider (exExchange exCode)

/-- The next `n` operations of request `i`. -/
def exTurn (i n : Nat) (d : Fin 64) : List (Nat × Draw) := List.replicate n (i, exDraw d)

/-- A simulation from the empty database. -/
def exSim (calls : Nat → Call) (l : List (Nat × Draw)) : List Step × Store × (Nat → P Response) :=
  sim toyEnv l exStore (fun i => callProg toyEnv (exHooks toyEnv) (calls i))

/-- Is the request finished with a response of this status? -/
def finished (status : Nat) (p : P Response) : Bool :=
  match outcome p with
  | some (.ok r) => decide (r.status = status)
  | _ => false

theorem finished_exec {calls : Nat → Call} {l : List (Nat × Draw)} {i : Nat} {p : Provider} {req : Request} {status : Nat}
    (hc : calls i = .token p req) (h : finished status ((exSim calls l).2.2 i) = true) :
    ∃ r, Exec (p.token toyEnv (exHooks toyEnv) req) (ofRequest i (exSim calls l).1) (.ok r) ∧ r.status = status := by
  unfold finished at h
  split at h
  · rename_i r hr
    have := sim_outcome hr
    rw [hc] at this
    exact ⟨r, this, of_decide_eq_true h⟩
  · cases h

theorem exSim_history (calls : Nat → Call) (l : List (Nat × Draw)) (hp : ∀ i, Call.plain (calls i) = true) :
    History toyEnv (exHooks toyEnv) calls (exSim calls l).1 := sim_history _ _ _ _ _ hp

theorem exSim_run (calls : Nat → Call) (l : List (Nat × Draw)) :
    ExRun toyEnv exStore (exSim calls l).1 (exSim calls l).2.1 := sim_run _ _ _ _

theorem exSim_honest (calls : Nat → Call) (l : List (Nat × Draw)) : Honest (exSim calls l).1 :=
  run_honest (exSim_run calls l) rfl rfl

theorem exCalls_plain (i : Nat) : Call.plain (exCalls i) = true := by
  cases i <;> rfl

theorem exHooks_benign (env : OEnv) : Benign (exHooks env) := benign_oidcTable env exProvider.cfg

/-- How many codes are stored in the history. -/
def savings (h : List Step) : Nat := (h.filter (fun s => savesCode s.2)).length

theorem fresh_of_savings {h : List Step} (hs : savings h ≤ 1) : FreshCodes h := by
  rintro a i code data cl u ans b j data' cl' u' ans' c rfl
  simp only [savings, List.filter_append, List.filter_cons, savesCode, if_true, List.length_append, List.length_cons] at hs
  omega

/-- Does the request create an access token? -/
def redeems (i : Nat) (scopes : List PyStr) (h : List Step) : Bool := (ofRequest i h).any (createsAccess scopes)

theorem redeems_iff {i : Nat} {scopes : List PyStr} {h : List Step} (hr : redeems i scopes h = true) :
    ∃ c owner ans, (i, (⟨.createAccess c owner scopes, ans⟩ : Ev)) ∈ h := by
  obtain ⟨pre, post, c, owner, ans, heq⟩ := split_creates hr
  exact ⟨c, owner, ans, mem_ofRequest.mp (by rw [heq]; simp)⟩

theorem exExchange_code : Dict.get (exExchange exCode).data (py! "grant_type") = some (py! "authorization_code") ∧
    Dict.get (exExchange exCode).data (py! "code") = some toyDrawn := by
  decide +kernel

theorem exRedeems {i : Nat} {scopes : List PyStr} {h : List Step} (hi : i ≠ 0) (hr : redeems i scopes h = true) :
    Redeems exCalls h i toyDrawn := by
  obtain ⟨c, owner, ans, hm⟩ := redeems_iff hr
  refine ⟨⟨exProvider, exExchange exCode, ?_, exExchange_code⟩, c, owner, scopes, ans, hm⟩
  cases i with
  | zero => exact absurd rfl hi
  | succ n => rfl

end Psion.Props
