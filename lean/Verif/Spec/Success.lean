import Verif.Spec.OAuth
import Verif.Py.JsonEncode

/-!
# Vocabulary for the properties about legitimate requests

What a request, a client and an adapter have to be like so that the request deserves to be served.
-/

namespace Psion.Spec

open Psion

/-- The request identifies the client `c`, known under `id`, by the method `m`: it presents the id and secret of the client in
the way for which the client is registered, and no Basic header competes with credentials in the form. -/
structure Identifies (req : Request) (m : AuthMethod) (id : PyStr) (c : Client) : Prop where
  presents : Presents req m id c.secret
  registered : c.authMethod = methodName m
  alone : m = .basic ∨ ¬ MalformedBasic req.headers ∧ ∀ id secret, ¬ Credentials req.headers id secret

/-- The contract of `get_allowed_scopes`, `/repo/src/psion/oauth2/mixins.py:148-160`, for a client that is allowed exactly the
scopes `allowed`: of the given scopes those that are allowed, in any order. -/
def Permits (c : Client) (allowed : List PyStr) : Prop :=
  ∀ l, ∃ r, c.allowedScopes (strList l) = .ok r ∧ ∀ s, s ∈ r ↔ s ∈ l ∧ s ∈ allowed

/-- The scopes that the request asks for: the words of the parameter `scope`; none if it is missing. -/
def Asks (data : Dict PyStr PyStr) (ws : List PyStr) : Prop :=
  (Dict.get data (py! "scope") = none ∧ ws = []) ∨ ∃ text, Dict.get data (py! "scope") = some text ∧ Words text ws

/-- In the execution the adapter knows the client and creates tokens of the client for the owner and scopes with the property `S`
without failure. Tokens and scopes contain no lone surrogates. -/
structure Works (tr : List Ev) (id : PyStr) (c : Client) (owner : Owner) (S : List PyStr → Prop) : Prop where
  client : ∀ r, (⟨.findClient id, r⟩ : Ev) ∈ tr → r = .ok (some c)
  access : ∀ s r, S s → (⟨.createAccess c owner s, r⟩ : Ev) ∈ tr → (∀ x ∈ s, Encodable x) ∧ ∃ t, r = .ok t ∧ Encodable t
  refresh : ∀ u s r, owner = .user u → S s → (⟨.createRefresh c u s, r⟩ : Ev) ∈ tr → ∃ t, r = .ok t ∧ Encodable t

/-- A token dictionary of the library for the client, the user and the scopes: it carries an access token that was created for
them in the execution, and names the scopes if there are any. -/
def MadeFor (tr : List Ev) (token : Dict PyStr Val) (c : Client) (user : User) (scopes : List PyStr) : Prop :=
  ∃ access, (⟨.createAccess c (.user (some user)) scopes, .ok access⟩ : Ev) ∈ tr ∧
    Dict.get token (py! "access_token") = some (.str access) ∧
    (scopes ≠ [] → Dict.get token (py! "scope") = some (.str (joinWith [32] scopes)))

/-- The hooks of the token endpoint do not raise in the execution when they are given a token of the library for the client, the
user and the scopes, and return dictionaries that can be sent as JSON. -/
structure HooksWork (table : Hooks) (tr : List Ev) (client : Client) (user : User) (scopes : List PyStr) : Prop where
  request : ∀ f ∈ table.tokenRequest, ∀ data tr' e, tr' <:+: tr → ¬ Exec (f data) tr' (.error e)
  response : ∀ f ∈ table.tokenResponse, ∀ token data tr', MadeFor tr token client user scopes → tr' <:+: tr →
    (∀ e, ¬ Exec (f token data client user) tr' (.error e)) ∧
    ∀ d, Exec (f token data client user) tr' (.ok (some d)) → Val.EncD d ∧ Val.WfD d

/-- The response hands out an access token created in the execution for the client, the owner and the scopes. -/
def HandsOut (fe : FloatEnv) (cfg : Config) (tr : List Ev) (r : Response) (d : Dict PyStr Val) (c : Client) (owner : Owner)
    (scopes : List PyStr) : Prop :=
  r.status = 200 ∧ JsonBody fe r d ∧ ∃ access, (⟨.createAccess c owner scopes, .ok access⟩ : Ev) ∈ tr ∧
    Dict.get d (py! "access_token") = some (.str access) ∧
    Dict.get d (py! "token_type") = some (.str (py! "Bearer")) ∧
    Dict.get d (py! "expires_in") = some (.int cfg.tokenLifespan)

/-- The response hands out a refresh token created in the execution if the client is registered for refresh tokens, and none
otherwise. -/
def HandsOutRefresh (tr : List Ev) (d : Dict PyStr Val) (c : Client) (user : Option User) (scopes : List PyStr) : Prop :=
  (py! "refresh_token" ∈ c.grantTypes ∧ ∃ t, (⟨.createRefresh c user scopes, .ok t⟩ : Ev) ∈ tr ∧
    Dict.get d (py! "refresh_token") = some (.str t)) ∨
  (py! "refresh_token" ∉ c.grantTypes ∧ Dict.get d (py! "refresh_token") = none)

/-! ## Authorization, consent and revocation -/

/-- The hooks of the authorization endpoint do not raise in the execution, and response hooks add parameters that can be encoded,
none of which is called `url`. -/
structure AuthHooksWork (env : OEnv) (table : Hooks) (tr : List Ev) : Prop where
  request : ∀ f ∈ table.authorizationRequest, ∀ data tr' e, tr' <:+: tr → ¬ Exec (f data) tr' (.error e)
  response : ∀ f ∈ table.authorizationResponse, ∀ code data client user tr', tr' <:+: tr →
    (∀ e, ¬ Exec (f code data client user) tr' (.error e)) ∧
    ∀ d, Exec (f code data client user) tr' (.ok (some d)) →
      ∀ k v, (k, v) ∈ d → k ≠ py! "url" ∧ Encodable k ∧ Encodable (env.str v)

/-- The request names the client `c`, known under `id`, one of its redirect URIs, and the scopes `ws`. -/
structure Names (req : Request) (id : PyStr) (c : Client) (uri : PyStr) (ws : List PyStr) : Prop where
  client : Dict.get req.data (py! "client_id") = some id
  someClient : id ≠ []
  someUri : uri ≠ []
  registered : uri ∈ c.redirectUris
  scope : ∃ text, Dict.get req.data (py! "scope") = some text ∧ text ≠ [] ∧ Words text ws
  target : Dict.get req.data (py! "redirect_uri") = some uri

/-- The request asks for a code, with a code challenge of the right form. -/
structure AsksForCode (req : Request) : Prop where
  type : Dict.get req.data (py! "response_type") = some (py! "code")
  challenge : ∃ ch, Dict.get req.data (py! "code_challenge") = some ch ∧ 43 ≤ ch.length ∧ ch.length ≤ 128
  method : Dict.get req.data (py! "code_challenge_method") = some (py! "plain") ∨
    Dict.get req.data (py! "code_challenge_method") = some (py! "S256")

end Psion.Spec
