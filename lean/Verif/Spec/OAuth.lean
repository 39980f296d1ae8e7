import Verif.OAuth.Provider
import Verif.Spec.Headers

/-!
# Vocabulary for the OAuth properties

Statements about what happened in an execution, independent of the code of the endpoints.
-/

namespace Psion.Spec

open Psion

/-! ## Events -/

/-- The adapter returned the client `c` for the id `id`. -/
def FoundClient (tr : List Ev) (id : PyStr) (c : Client) : Prop :=
  (⟨.findClient id, .ok (some c)⟩ : Ev) ∈ tr

/-- The adapter returned the stored authorization code `a` for `v`. -/
def FoundCode (tr : List Ev) (v : Val) (a : AuthCode) : Prop := (⟨.getCode v, .ok (some a)⟩ : Ev) ∈ tr

/-- The adapter returned the stored refresh token `t` for `s`. -/
def FoundRefresh (tr : List Ev) (s : PyStr) (t : RefreshTok) : Prop :=
  (⟨.getRefresh s, .ok (some t)⟩ : Ev) ∈ tr

/-- The adapter returned `u` for the user id `id`. -/
def FoundUser (tr : List Ev) (id : PyStr) (u : Option User) : Prop := (⟨.findUser id, .ok u⟩ : Ev) ∈ tr

/-- The clock was read and showed `t`. -/
def ReadClock (tr : List Ev) (t : Int) : Prop := (⟨.now, .ok t⟩ : Ev) ∈ tr

/-! ## Hooks -/

/-- Operations on stored codes and tokens. -/
def touchesStore : Op → Bool
  | .saveCode .. | .getCode _ | .deleteCode _ | .createAccess .. | .createRefresh .. | .getRefresh _ | .revoke .. => true
  | _ => false

/-- A hook that performs no operation on stored codes and tokens and does not overwrite the given members. -/
structure BenignHook (reserved : List PyStr) (p : P (Option (Dict PyStr Val))) : Prop where
  ops : ∀ tr, Partial p tr → ∀ ev ∈ tr, touchesStore ev.op = false
  keys : ∀ tr d, Exec p tr (.ok (some d)) → ∀ k ∈ reserved, Dict.get d k = none

/-- All registered hooks are well behaved at their checkpoint. -/
structure Benign (t : Hooks) : Prop where
  authorizationRequest : ∀ h ∈ t.authorizationRequest, ∀ data,
    BenignHook [py! "code_challenge", py! "code_challenge_method", py! "redirect_uri", py! "scopes", py! "state"] (h data)
  authorizationResponse : ∀ h ∈ t.authorizationResponse, ∀ code data client user,
    BenignHook [py! "code", py! "state"] (h code data client user)
  tokenRequest : ∀ h ∈ t.tokenRequest, ∀ data,
    BenignHook [py! "code", py! "redirect_uri", py! "code_verifier"] (h data)
  tokenResponse : ∀ h ∈ t.tokenResponse, ∀ token data client user,
    BenignHook [py! "access_token", py! "token_type", py! "expires_in", py! "refresh_token", py! "scope"]
      (h token data client user)

/-! ## Client authentication -/

/-- The request presents a client id and possibly a secret in the way of the method. -/
inductive Presents (req : Request) : AuthMethod → PyStr → Option PyStr → Prop
  /-- A Basic authorization header. -/
  | basic (id secret : PyStr) : Credentials req.headers id secret → id ≠ [] →
      secret ≠ [] → Presents req .basic id (some secret)
  /-- `client_id` and `client_secret` in the form. -/
  | post (id secret : PyStr) : Dict.get req.form (py! "client_id") = some id →
      Dict.get req.form (py! "client_secret") = some secret → id ≠ [] → secret ≠ [] →
      Presents req .post id (some secret)
  /-- `client_id` in the form and no `client_secret`. -/
  | none_ (id : PyStr) : Dict.get req.form (py! "client_id") = some id →
      Dict.get req.form (py! "client_secret") = none → id ≠ [] → Presents req .none_ id none

/-- The registered names of the authentication methods (RFC 7591, section 2). -/
def methodName : AuthMethod → PyStr
  | .basic => py! "client_secret_basic"
  | .post => py! "client_secret_post"
  | .none_ => py! "none"

/-- A list of allowed methods; no list or an empty list allows everything. -/
def Allows (methods : Option (List PyStr)) (m : AuthMethod) : Prop :=
  methods = none ∨ methods = some [] ∨ ∃ l, methods = some l ∧ methodName m ∈ l

/-- The client was authenticated: the adapter returned it for the presented id, its secret is exactly the one presented
(none for a public client), and it is registered for the method used, which is allowed. -/
def Authenticated (req : Request) (methods : Option (List PyStr)) (tr : List Ev) (c : Client) : Prop :=
  ∃ m id, FoundClient tr id c ∧ Presents req m id c.secret ∧ c.authMethod = methodName m ∧ Allows methods m

/-! ## Tokens -/

/-- The grant type requested from the token endpoint. -/
def grantName : GrantClass → PyStr
  | .authorizationCode => py! "authorization_code"
  | .clientCredentials => py! "client_credentials"
  | .refreshToken => py! "refresh_token"

/-- The ways in which a client may authenticate for a grant: the client credentials grant needs a secret. -/
def grantMethods : GrantClass → Option (List PyStr)
  | .clientCredentials => some [py! "client_secret_basic", py! "client_secret_post"]
  | _ => none

/-- PKCE, RFC 7636 section 4.6: the verifier belongs to the stored challenge. -/
def PkceOk (env : OEnv) (ac : AuthCode) (verifier : PyStr) : Prop :=
  (ac.challengeMethod = py! "plain" ∧ ac.challenge = verifier) ∨
    (ac.challengeMethod = py! "S256" ∧ (∀ c ∈ verifier, c < 128) ∧
      ac.challenge = asciiStr (b64urlEncode (env.sha256 (verifier.map byte))))

/-- The words of a text: maximal pieces without white space, in order. -/
inductive Words : PyStr → List PyStr → Prop
  | nil : Words [] []
  | space (c : Nat) (s : PyStr) (ws : List PyStr) : isPySpace c = true → Words s ws → Words (c :: s) ws
  | last (w : PyStr) : w ≠ [] → (∀ c ∈ w, isPySpace c = false) → Words w [w]
  | word (w : PyStr) (c : Nat) (s : PyStr) (ws : List PyStr) : w ≠ [] → (∀ c ∈ w, isPySpace c = false) →
      isPySpace c = true → Words s ws → Words (w ++ c :: s) (w :: ws)

/-- Why an access token may be created at the token endpoint through the authorization code grant. -/
def CodeJustifies (env : OEnv) (data : Dict PyStr PyStr) (h : List Ev) (c : Client) (u : User)
    (scopes : List PyStr) : Prop :=
  ∃ code ac uri verifier now,
    Dict.get data (py! "code") = some code ∧ FoundCode h (.str code) ac ∧
    ac.clientId = c.clientId ∧
    Dict.get data (py! "redirect_uri") = some uri ∧ ac.redirectUri = uri ∧ uri ∈ c.redirectUris ∧
    Dict.get data (py! "code_verifier") = some verifier ∧ PkceOk env ac verifier ∧
    ReadClock h now ∧ now < ac.expiration ∧
    FoundUser h ac.userId (some u) ∧ scopes = ac.scopes

/-- Why an access token may be created through the refresh token grant. -/
def RefreshJustifies (cfg : Config) (data : Dict PyStr PyStr) (h : List Ev) (c : Client) (u : Option User)
    (scopes : List PyStr) : Prop :=
  ∃ token rt now base,
    Dict.get data (py! "refresh_token") = some token ∧ FoundRefresh h token rt ∧
    rt.clientId = c.clientId ∧ ReadClock h now ∧ now < rt.expiration ∧ FoundUser h rt.userId u ∧
    (∀ s ∈ base, s ∈ rt.scopes) ∧
    (∀ text ws, Dict.get data (py! "scope") = some text → Words text ws → ws ≠ [] →
      (∀ s, s ∈ base ↔ s ∈ ws) ∧ ∀ s ∈ ws, s ∈ cfg.scopes) ∧
    ((∀ text ws, Dict.get data (py! "scope") = some text → Words text ws → ws = []) → base = rt.scopes) ∧
    c.allowedScopes (strList base) = .ok scopes

/-- Why an access token may be created through the client credentials grant. -/
def CredentialsJustify (cfg : Config) (data : Dict PyStr PyStr) (c : Client) (scopes : List PyStr) : Prop :=
  (Dict.get data (py! "scope") = none ∨ Dict.get data (py! "scope") = some []) ∧
      c.allowedScopes .none = .ok scopes ∨
    ∃ text ws, Dict.get data (py! "scope") = some text ∧ text ≠ [] ∧ Words text ws ∧ (∀ s ∈ ws, s ∈ cfg.scopes) ∧
      c.allowedScopes (strList ws) = .ok scopes ∧ ∀ s ∈ ws, s ∈ scopes

/-- Why the token endpoint of the provider `p` may create an access token of `c` for `owner` with `scopes`: the requested
grant is one of the grants of the provider, the client is authenticated in a way allowed for it and registered for it, and the
grant itself justifies owner and scopes. -/
def Justified (env : OEnv) (p : Provider) (req : Request) (h : List Ev) (c : Client) (owner : Owner)
    (scopes : List PyStr) : Prop :=
  ∃ g ∈ p.grants, Dict.get req.data (py! "grant_type") = some (grantName g) ∧ grantName g ∈ c.grantTypes ∧
    Authenticated req (grantMethods g) h c ∧
    match g with
    | .authorizationCode => ∃ u, owner = .user (some u) ∧ CodeJustifies env req.data h c u scopes
    | .clientCredentials => owner = .client c ∧ CredentialsJustify p.cfg req.data c scopes
    | .refreshToken => ∃ u, owner = .user u ∧ RefreshJustifies p.cfg req.data h c u scopes

/-- What the library passes to `get_allowed_scopes`: a list of texts, or `None`. -/
def ScopeArg (v : Val) : Prop := v = .none ∨ ∃ l : List PyStr, v = strList l

theorem scopeArg_list (l : List PyStr) : ScopeArg (strList l) := Or.inr ⟨l, rfl⟩

/-- The documented contract of `get_allowed_scopes`, `/repo/src/psion/oauth2/mixins.py:148-160`: of the scopes given, the
result contains only those that the client is allowed to request. -/
def Narrows (c : Client) : Prop :=
  ∀ l r, c.allowedScopes (strList l) = .ok r → ∀ s ∈ r, s ∈ l

/-! ## Authorization requests -/

/-- The redirect URI of the request is registered for the client that the request names, according to the adapter. -/
def RegisteredUri (req : Request) (h : List Ev) (uri : PyStr) : Prop :=
  ∃ id c, Dict.get req.data (py! "client_id") = some id ∧ FoundClient h id c ∧
    Dict.get req.data (py! "redirect_uri") = some uri ∧ uri ∈ c.redirectUris

/-- Why a code may be stored for the client `c` and the user `u` with the parameters `data`: the user is logged in, the
client is the one named in the request and is registered for the redirect URI and the response type, and the parameters are
those of the request, with an acceptable code challenge and with scopes that are supported and allowed for the client. -/
structure Authorizes (p : Provider) (req : Request) (h : List Ev) (c : Client) (u : User) (data : Dict PyStr Val) :
    Prop where
  user : req.user = some u
  grant : .authorizationCode ∈ p.grants
  requested : Dict.get req.data (py! "response_type") = some (py! "code")
  registered : py! "code" ∈ c.responseTypes
  client : ∃ id, Dict.get req.data (py! "client_id") = some id ∧ FoundClient h id c
  uri : ∃ uri, Dict.get req.data (py! "redirect_uri") = some uri ∧ uri ∈ c.redirectUris ∧
    Dict.get data (py! "redirect_uri") = some (.str uri)
  challenge : ∃ ch, Dict.get req.data (py! "code_challenge") = some ch ∧ 43 ≤ ch.length ∧ ch.length ≤ 128 ∧
    Dict.get data (py! "code_challenge") = some (.str ch)
  method : ∃ m, Dict.get req.data (py! "code_challenge_method") = some m ∧ (m = py! "plain" ∨ m = py! "S256") ∧
    Dict.get data (py! "code_challenge_method") = some (.str m)
  scopes : ∃ text ws allowed, Dict.get req.data (py! "scope") = some text ∧ Words text ws ∧
    Dict.get data (py! "scopes") = some (strList ws) ∧ (∀ s ∈ ws, s ∈ p.cfg.scopes) ∧
    c.allowedScopes (strList ws) = .ok allowed ∧ ∀ s ∈ ws, s ∈ allowed
  state : Dict.get data (py! "state") = some (match Dict.get req.data (py! "state") with | some s => .str s | none => .none)

/-! ## Responses -/

/-- A JSON parser reads the body of the response as the object `d`. -/
def JsonBody (fe : FloatEnv) (r : Response) (d : Dict PyStr Val) : Prop := jsonLoads fe r.body = .ok (.dict d)

/-- The Location header of a response. -/
def location (r : Response) : Option PyStr := (Dict.get r.headers (py! "Location")).join

/-- The entries that carry a non-empty text. -/
def visible (d : NDict PyStr PyStr) : Dict PyStr PyStr :=
  d.filterMap (fun kv => match kv.2 with
    | some (c :: v) => some (kv.1, c :: v)
    | _ => none)

/-- The response sends the user agent to `url` with exactly the parameters `params` (those that are set and not empty)
appended as a query, which the receiver decodes to exactly these parameters. -/
def RedirectsTo (r : Response) (url : PyStr) (params : NDict PyStr PyStr) : Prop :=
  r.status = 303 ∧ ∃ base q, quotePlus locSafe url = .ok base ∧ location r = some (base ++ py! "?" ++ q) ∧
    urldecode q = visible params

end Psion.Spec
