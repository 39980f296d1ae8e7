import Verif.Props.TokenKinds
import Verif.Props.ExampleFlow

/-!
# C150: whether an access token acts for a user or for the client itself

RFC 9068, sections 2.2 and 5: the claim `sub` names the user, or the client if no user is involved; a resource server must be able to tell these
apart.
-/

namespace Psion.Props

open Psion Spec Example

/-- C150 (partial): in every history of the example application, whatever is decoded from an access token tells whether the client acted for
itself: `sub` is the `client_id` exactly if the grant type of the request was `client_credentials`; otherwise `sub` is the id of the user for whom
the token was made. This holds if the id of the user is not the one of the client; see `C150_refuted`. -/
theorem C150_partial (env : OEnv) (hl : FloatLaws env.cr.fe) (table : Hooks) (hb : Benign table) (calls : Nat → Call) (s s' : Store)
    (pre post : List Step) (i : Nat) (p : Provider) (req : Request) (c : Client) (owner : Owner) (scopes : List PyStr) (t : PyStr)
    (hist : History env table calls (pre ++ (i, ⟨.createAccess c owner scopes, .ok t⟩) :: post))
    (hrun : ExRun env s (pre ++ (i, ⟨.createAccess c owner scopes, .ok t⟩) :: post) s') (hcall : calls i = .token p req)
    (hids : ∀ u, owner = .user (some u) → u.userId ≠ c.clientId) (n1 n2 : Int) (alg : Option PyStr) (halg : ExpectsHS256 alg)
    (opts : Val) (jwt : Jwt) (hd : Jwt.decodeStr env.cr n1 n2 t exKey alg true opts = .ok jwt) :
    (dget jwt.claims (py! "sub") = dget jwt.claims (py! "client_id") ↔
      Dict.get req.data (py! "grant_type") = some (py! "client_credentials")) ∧
    (Dict.get req.data (py! "grant_type") ≠ some (py! "client_credentials") →
      ∃ u, owner = .user (some u) ∧ dget jwt.claims (py! "sub") = .str u.userId) := by
  have hdid := history_did hist
  rw [hcall] at hdid
  obtain ⟨g, -, hg, -, -, hj⟩ := access_justified hb hdid
  obtain ⟨m, m', -, hs, -⟩ := run_at hrun
  obtain ⟨stamp, sub, jti, ho, H⟩ := access_decoded hl hs
  obtain ⟨hc, -⟩ := H n1 n2 alg opts jwt halg hd
  have e1 : dget jwt.claims (py! "sub") = .str sub := by rw [hc]; rfl
  have e2 : dget jwt.claims (py! "client_id") = .str c.clientId := by rw [hc]; rfl
  have user : ∀ u, owner = .user u → Dict.get req.data (py! "grant_type") ≠ some (py! "client_credentials") →
      (Val.str sub = .str c.clientId ↔ Dict.get req.data (py! "grant_type") = some (py! "client_credentials")) ∧
      (Dict.get req.data (py! "grant_type") ≠ some (py! "client_credentials") →
        ∃ u, owner = .user (some u) ∧ Val.str sub = .str u.userId) := by
    rintro u rfl hn
    obtain ⟨u, rfl, rfl⟩ := ho
    refine ⟨⟨fun h => absurd (Val.str.inj h) (hids u rfl), fun h => absurd h hn⟩, fun _ => ⟨u, rfl, rfl⟩⟩
  rw [e1, e2]
  cases g with
  | authorizationCode =>
    obtain ⟨u, hu, -⟩ := hj
    exact user _ hu (by rw [hg]; decide)
  | refreshToken =>
    obtain ⟨u, hu, -⟩ := hj
    exact user _ hu (by rw [hg]; decide)
  | clientCredentials =>
    obtain ⟨rfl, -⟩ := hj
    have ho : c.clientId = sub := ho
    subst ho
    exact ⟨⟨fun _ => hg, fun _ => rfl⟩, fun h => absurd hg h⟩

/-- A request of the client for itself. -/
def exOwnToken : Request := toyPost (by! "grant_type=client_credentials")

/-- Does the event create an access token of the client for itself, or for this user? -/
def createsAccessFor (uid : Option PyStr) : Ev → Bool
  | ⟨.createAccess _ (.client _) _, .ok _⟩ => decide (uid = none)
  | ⟨.createAccess _ (.user (some u)) _, .ok _⟩ => decide (uid = some u.userId)
  | _ => false

/-- A client which may ask for tokens for itself. -/
def ownTokenStore : Store :=
  { exStore with clients := [{ exClient with grantTypes := [py! "authorization_code", py! "client_credentials"] }] }

/-- Both kinds of access tokens exist. -/
example : (solo toyEnv (List.replicate 5 (exDraw 1)) ownTokenStore (exProvider.token toyEnv (exHooks toyEnv) exOwnToken)).1.any
      (fun q => createsAccessFor none q.2) = true ∧
    (exSim exCalls (exTurn 0 3 0 ++ exTurn 1 13 1)).1.any (fun x => createsAccessFor (some (py! "u1")) x.2) = true ∧
    exUser.id ≠ exClient.id := by decide +kernel

/-- C150 is violated if a client has the id of a user: the token that the client gets for itself is, letter for letter, the token that it would
get for the user, so that nobody can tell them apart. The two tables have keys of their own (`/repo/example/models/users.py:14`,
`/repo/example/models/clients.py:10`), and nothing compares them; ids that are drawn as random UUIDs will differ, chosen ones need not. -/
theorem C150_refuted (env : OEnv) (d : Draw) (s : Store) (c : Client) (u : User) (h : u.userId = c.clientId) (scopes : List PyStr) :
    (exOp env d s (.createAccess c (.client c) scopes)).2 = (exOp env d s (.createAccess c (.user (some u)) scopes)).2 := by
  show liftRes (createAccess env d c (.client c) scopes) = liftRes (createAccess env d c (.user (some u)) scopes)
  have e : ownerId (.client c) = ownerId (.user (some u)) := congrArg Except.ok h.symm
  unfold createAccess
  rw [e]

/-- A user with the id of the client. -/
def twinUser : UserRow := { exUser with id := exClient.id }

/-- A database with this user. -/
def twinStore : Store := { ownTokenStore with users := [twinUser] }

/-- Is the event the creation of an access token of a client for itself, and the token the one that the client would get for this user? -/
def createsTwin (u : User) : Draw × Ev → Bool
  | (d, ⟨.createAccess c (.client _) scopes, .ok t⟩) =>
    match createAccess toyEnv d c (.user (some u)) scopes with
    | .ok t' => decide (t' = t)
    | .error _ => false
  | _ => false

/-- The request is served, and the token is the one for the user. -/
example : (twinStore.findUser (py! "c1")).map UserRow.id = some exClient.id ∧
    (twinStore.findClient (py! "c1")).map ClientRow.id = some exClient.id ∧
    (solo toyEnv (List.replicate 5 (exDraw 1)) twinStore (exProvider.token toyEnv (exHooks toyEnv) exOwnToken)).1.any
      (createsTwin twinUser.user) = true ∧
    (solo toyEnv (List.replicate 5 (exDraw 1)) twinStore (exProvider.token toyEnv (exHooks toyEnv) exOwnToken)).1.any
      (createsTwin exUser.user) = false := by decide +kernel

end Psion.Props
