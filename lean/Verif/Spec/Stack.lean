import Verif.Spec.Alone
import Verif.Spec.Form
import Verif.Spec.Headers
import Verif.Spec.OidcSuccess
import Verif.Spec.Web

/-!
# Vocabulary for the property that the example application answers
-/

namespace Psion.Spec

open Psion Example

/-- Nothing in the database that can get into a token or a response contains a lone surrogate. -/
structure PlainStore (m : Store) : Prop where
  users : ∀ row ∈ m.users, PlainUser row
  clients : ∀ row ∈ m.clients, Encodable row.id ∧ ∀ s ∈ row.scopes, Encodable s
  codes : ∀ code ac, (code, ac) ∈ m.codes → ∀ s ∈ ac.scopes, Encodable s
  refresh : ∀ rt ∈ m.refresh, Encodable rt.token

/-- The operation was performed without error, as the adapter does it, on some database without lone surrogates. -/
def Performed (env : OEnv) (ev : WEv) : Prop :=
  ∃ d w w' a, PlainStore w.db ∧ wOp env d w ev.op = (w', ev.ans) ∧ ev.ans = .ok a

/-- Conditions on a request that the token endpoint may need: a Basic header that can be read, a code if codes are to be
exchanged, and a verifier of ASCII text. -/
structure TokenForm (r : Request) : Prop where
  header : ¬ MalformedBasic r.headers
  code : Dict.get r.data (py! "grant_type") = some (py! "authorization_code") → Dict.get r.data (py! "code") ≠ none
  verifier : ∀ v, Dict.get r.data (py! "code_verifier") = some v → ∀ c ∈ v, c < 128

/-- Conditions on a request that the revocation endpoint may need: a Basic header that can be read, and a token. -/
structure RevokeForm (r : Request) : Prop where
  header : ¬ MalformedBasic r.headers
  token : ∃ t, Dict.get r.form (py! "token") = some t ∧ t ≠ []

/-- Conditions on a request: what the framework guarantees (names of headers in lower case, no lone surrogates), no host with one
bracket only, no `HEAD` request to the authorization endpoint, and the conditions of the token and revocation endpoints on what arrives there. -/
structure Acceptable (req : WebRequest) : Prop where
  names : ∀ kv ∈ req.headers, asciiLower kv.1 = kv.1
  plain : Encodable req.site ∧ Encodable req.url ∧ Encodable req.query
  host : ¬ OneBracket req.url
  method : req.route = .authorize → req.method ≠ py! "HEAD"
  token : req.route = .token → req.method = py! "POST" → ∀ user r, ArrivesAs req user r → TokenForm r
  revoke : req.route = .revoke → req.method = py! "POST" → ∀ user r, ArrivesAs req user r → RevokeForm r

/-- What is asked of a run of the application: every operation was performed, the clock runs, and the codes that were found have
scopes. -/
structure RunsWell (env : OEnv) (tr : List WEv) : Prop where
  performed : ∀ ev ∈ tr, Performed env ev
  clock : ClockRuns (libOf tr) exProvider.cfg.idTokenLifespan
  codes : ∀ code ac, FoundCode (libOf tr) code ac → ac.scopes ≠ []

/-! ## Histories in which nothing fails -/

/-- A database as the application itself leaves it: without lone surrogates, codes have scopes, and the users of refresh tokens
are there. -/
structure SoundStore (m : Store) : Prop where
  plain : PlainStore m
  codes : ∀ code ac, (code, ac) ∈ m.codes → ac.scopes ≠ []
  refresh : ∀ rt ∈ m.refresh, (m.findUser rt.userId).isSome

/-- What is drawn at random for an operation that stores a code, a refresh token or a session is new. -/
structure NewWeb (w : WStore) (d : Draw) (o : WOp) : Prop where
  lib : ∀ o', o = .lib o' → NewDraw w.db d o'
  session : ∀ sid uid, o = .saveSession sid uid → sid ∉ w.sessions.map Prod.fst

/-- The operations of any requests are performed, in the order of `l`; the database does not fail, and nobody administers it. -/
inductive Operates (env : OEnv) : WStore → List (Draw × WStep) → WStore → Prop
  | nil (w : WStore) : Operates env w [] w
  | step (w w' w'' : WStore) (d : Draw) (i : Nat) (ev : WEv) (l : List (Draw × WStep)) :
      wOp env d w ev.op = (w', ev.ans) → NewWeb w d ev.op → Operates env w' l w'' → Operates env w ((d, i, ev) :: l) w''

/-- The history without what was drawn. -/
def stepsOf (l : List (Draw × WStep)) : List WStep := l.map Prod.snd

/-- For the request number `i` the clock does not run backwards, and it all takes less than an hour. -/
def PromptFor (i : Nat) (l : List (Draw × WStep)) : Prop :=
  ((l.filter fun p => decide (p.2.1 = i)).flatMap fun p => [p.1.stamp, p.1.stamp2]).Pairwise fun t t' => t ≤ t' ∧ t' < t + 3600

/-- What is asked of every request: names of headers in lower case, as the framework passes them on, and no authorization for
blank scopes only. -/
structure Tame (req : WebRequest) : Prop where
  names : ∀ kv ∈ req.headers, asciiLower kv.1 = kv.1
  scope : req.route = .authorize → ∀ user r s, ArrivesAs req user r → Dict.get r.data (py! "scope") = some s → ¬ Words s []

/-- An acceptable request; and if it is one for an authorization, it has a nonce of acceptable length. -/
structure Proper (req : WebRequest) : Prop extends Acceptable req where
  nonce : req.route = .authorize → req.method = py! "GET" → ∀ user r, ArrivesAs req user r →
    ∃ n, Dict.get r.data (py! "nonce") = some n ∧ n ≠ [] ∧ n.length ≤ 256

end Psion.Spec
