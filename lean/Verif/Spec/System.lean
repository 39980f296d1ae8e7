import Verif.Spec.OAuth

/-!
# Histories

Many requests are in progress at the same time: between two operations of one request, any number of operations of other
requests may take place, and a request may stop anywhere (because it is finished, still running, cancelled, or because the
process crashed). A history is the sequence of all operations in the order in which they took effect, each with the number of
the request that performed it.
-/

namespace Psion.Spec

open Psion

/-- A request to one of the endpoints of a provider. -/
inductive Call
  | authorize (p : Provider) (req : Request)
  | consent (p : Provider) (req : Request)
  | token (p : Provider) (req : Request)
  | revoke (p : Provider) (req : Request)

/-- The request can have performed these operations so far. -/
def Call.Did (env : OEnv) (table : Hooks) (tr : List Ev) : Call → Prop
  | .authorize p req => Partial (p.authorize env table req) tr
  | .consent p req => Partial (p.consent req) tr
  | .token p req => Partial (p.token env table req) tr
  | .revoke p req => Partial (p.revoke env req) tr

/-- An operation in a history: the number of the request, and what it did. -/
abbrev Step := Nat × Ev

/-- The operations of the request number `i`. -/
def ofRequest (i : Nat) (h : List Step) : List Ev := h.filterMap (fun s => if s.1 = i then some s.2 else none)

/-- A history of the requests `calls`: every request does what its endpoint does, as far as it gets. Nothing is said about the
order of operations of different requests. -/
def History (env : OEnv) (table : Hooks) (calls : Nat → Call) (h : List Step) : Prop :=
  ∀ i, (calls i).Did env table (ofRequest i h)

/-- The stored code `ac` is what was to be saved with `data` for the client and the user. -/
structure StoredAs (ac : AuthCode) (data : Dict PyStr Val) (c : Client) (u : User) : Prop where
  client : ac.clientId = c.clientId
  user : ac.userId = u.userId
  uri : Dict.get data (py! "redirect_uri") = some (.str ac.redirectUri)
  scopes : Dict.get data (py! "scopes") = some (strList ac.scopes)
  challenge : Dict.get data (py! "code_challenge") = some (.str ac.challenge)
  method : Dict.get data (py! "code_challenge_method") = some (.str ac.challengeMethod)

/-- What the application has to guarantee: the adapter only returns what was stored (whatever became of the answer at that
time), users are found under their own id, and `get_allowed_scopes` narrows. -/
structure Honest (h : List Step) : Prop where
  code : ∀ pre i v ac post, h = pre ++ (i, ⟨.getCode v, .ok (some ac)⟩) :: post →
    ∃ j code data c u ans, (j, ⟨.saveCode code data c u, ans⟩) ∈ pre ∧ v = .str code ∧ StoredAs ac data c u
  refresh : ∀ pre i t rt post, h = pre ++ (i, ⟨.getRefresh t, .ok (some rt)⟩) :: post →
    ∃ j c u ans, (j, ⟨.createRefresh c (some u) rt.scopes, ans⟩) ∈ pre ∧ rt.clientId = c.clientId ∧
      rt.userId = u.userId
  user : ∀ i id u, (i, ⟨.findUser id, .ok (some u)⟩) ∈ h → u.userId = id
  narrows : ∀ i id c, (i, ⟨.findClient id, .ok (some c)⟩) ∈ h → Narrows c

/-- An authorization: at this point of the history the request number `j`, of the logged-in user `u` to the authorization
endpoint, has stored the code `code` for the client `c` with the parameters `data`. -/
structure Authorization (env : OEnv) (table : Hooks) (calls : Nat → Call) (h : List Step) (j : Nat) (p : Provider)
    (req : Request) (code : PyStr) (data : Dict PyStr Val) (c : Client) (u : User) : Prop where
  call : calls j = .authorize p req
  saved : ∃ ans, (j, ⟨.saveCode code data c u, ans⟩) ∈ h
  authorizes : Authorizes p req (ofRequest j h) c u data

/-- What the application has to guarantee about deletion: after a code has been deleted, it is not found any more, unless it was
stored again. -/
def Deletes (h : List Step) : Prop :=
  ∀ a i v b j ac c, h = a ++ (i, ⟨.deleteCode v, .ok ()⟩) :: b ++ (j, ⟨.getCode v, .ok (some ac)⟩) :: c →
    ∃ l code data cl u ans, v = .str code ∧ (l, ⟨.saveCode code data cl u, ans⟩) ∈ b

/-- No code is stored twice: the random codes do not repeat. -/
def FreshCodes (h : List Step) : Prop :=
  ∀ a i code data cl u ans b j data' cl' u' ans' c,
    h ≠ a ++ (i, ⟨.saveCode code data cl u, ans⟩) :: b ++ (j, ⟨.saveCode code data' cl' u', ans'⟩) :: c

/-- The request number `i` has created an access token from the code `code`. -/
structure Redeems (calls : Nat → Call) (h : List Step) (i : Nat) (code : PyStr) : Prop where
  call : ∃ p req, calls i = .token p req ∧ Dict.get req.data (py! "grant_type") = some (py! "authorization_code") ∧
    Dict.get req.data (py! "code") = some code
  created : ∃ c owner scopes ans, (i, ⟨.createAccess c owner scopes, ans⟩) ∈ h

end Psion.Spec
