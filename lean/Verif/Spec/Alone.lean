import Verif.Spec.StandardScopes
import Verif.Spec.Disclosure
import Verif.Py.JsonEncode
import Verif.Spec.Success

/-!
# Vocabulary for requests to the example application that nothing disturbs
-/

namespace Psion.Spec

open Psion Example

/-- What is drawn at random for an operation that stores a code or a refresh token is new: none of this name is stored. -/
structure NewDraw (m : Store) (d : Draw) (o : Op) : Prop where
  code : ∀ code data c u, o = .saveCode code data c u → Dict.get m.codes code = none
  refresh : ∀ c u s t, o = .createRefresh c u s → secretToken d.choices32.val = .ok t → m.findRefresh t = none

/-- The operations `l` are performed one after the other, nothing happens in between, and the database does not fail. -/
inductive Alone (env : OEnv) : Store → List (Draw × Ev) → Store → Prop
  | nil (m : Store) : Alone env m [] m
  | step (m m' m'' : Store) (d : Draw) (ev : Ev) (l : List (Draw × Ev)) :
      exOp env d m ev.op = (m', ev.ans) → NewDraw m d ev.op → Alone env m' l m'' → Alone env m ((d, ev) :: l) m''

/-- The operations without what was drawn. -/
def events (l : List (Draw × Ev)) : List Ev := l.map Prod.snd

/-- The clock does not run backwards, and it all takes less than an hour. -/
def Prompt (l : List (Draw × Ev)) : Prop :=
  (l.flatMap fun p => [p.1.stamp, p.1.stamp2]).Pairwise fun t t' => t ≤ t' ∧ t' < t + 3600

/-- Nothing in the row of the user contains a lone surrogate. -/
def PlainUser (row : UserRow) : Prop :=
  Encodable row.id ∧ ∀ scope claims k v, (scope, claims) ∈ scopeClaims row → (k, v) ∈ claims → v.Enc

/-- The database identifies refresh tokens by their text, which contains no lone surrogates. -/
structure PlainTokens (m : Store) : Prop where
  distinct : (m.refresh.map RefreshTok.token).Nodup
  plain : ∀ r ∈ m.refresh, Encodable r.token

/-! ## Legitimate requests of a client -/

/-- A legitimate exchange of a code by the client of the row: it is registered for the grant and identifies itself, and presents
the code, the redirect URI and a verifier for the challenge. -/
structure Exchanges (env : OEnv) (req : Request) (row : ClientRow) (code uri challenge method : PyStr) : Prop where
  type : Dict.get req.data (py! "grant_type") = some (py! "authorization_code")
  grant : py! "authorization_code" ∈ row.grantTypes
  client : ∃ m, Identifies req m row.id row.client
  code : Dict.get req.data (py! "code") = some code ∧ code ≠ []
  uri : Dict.get req.data (py! "redirect_uri") = some uri ∧ uri ≠ [] ∧ uri ∈ row.redirectUris
  verifier : ∃ v, Dict.get req.data (py! "code_verifier") = some v ∧ v ≠ [] ∧
    (method = py! "plain" ∧ challenge = v ∨ method = py! "S256" ∧ (∀ c ∈ v, c < 128) ∧
      challenge = asciiStr (b64urlEncode (env.sha256 (v.map byte))))

/-- A legitimate use of a refresh token by the client of the row: it is registered for the grant and identifies itself, and
presents the token; if it names scopes, they are its own and among those of the token. -/
structure Refreshes (req : Request) (row : ClientRow) (token : PyStr) (scopes ws : List PyStr) : Prop where
  type : Dict.get req.data (py! "grant_type") = some (py! "refresh_token")
  grant : py! "refresh_token" ∈ row.grantTypes
  client : ∃ m, Identifies req m row.id row.client
  token : Dict.get req.data (py! "refresh_token") = some token ∧ token ≠ []
  asks : Asks req.data ws
  permitted : ∀ s ∈ ws, s ∈ standardScopes ∧ s ∈ row.scopes ∧ s ∈ scopes

end Psion.Spec
