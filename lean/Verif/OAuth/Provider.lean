import Verif.OAuth.Oidc

/-!
# Providers and hooks

`/repo/src/psion/oauth2/providers/base.py`. A class attribute is shared by everything that does not override it: the table
`BaseGrant.__hooks__` is one object for all grants of all providers of the process.
-/

namespace Psion

/-- The grant classes of the library. -/
inductive GrantClass
  | authorizationCode | clientCredentials | refreshToken
  deriving DecidableEq, Repr

/-- An instance of a hook class: the checkpoints it implements, already applied to adapter and configuration. -/
structure Hook where
  authorizationRequest : Option (Dict PyStr PyStr → P (Option (Dict PyStr Val))) := none
  authorizationResponse :
    Option (PyStr → Dict PyStr Val → Client → User → P (Option (Dict PyStr Val))) := none
  tokenRequest : Option (Dict PyStr PyStr → P (Option (Dict PyStr Val))) := none
  tokenResponse :
    Option (Dict PyStr Val → Dict PyStr Val → Client → User → P (Option (Dict PyStr Val))) := none

/-- The table without hooks, `/repo/src/psion/oauth2/grants/base.py:52-57`. -/
def Hooks.empty : Hooks := ⟨[], [], [], []⟩

/-- The inner loop of `add_hook`, `/repo/src/psion/oauth2/providers/base.py:83-85`: a new instance of the hook class is added to the
set of every checkpoint that the class implements. Instances are compared by identity, so nothing is ever replaced. -/
def Hooks.add (t : Hooks) (h : Hook) : Hooks where
  authorizationRequest := t.authorizationRequest ++ h.authorizationRequest.toList
  authorizationResponse := t.authorizationResponse ++ h.authorizationResponse.toList
  tokenRequest := t.tokenRequest ++ h.tokenRequest.toList
  tokenResponse := t.tokenResponse ++ h.tokenResponse.toList

/-- A provider: its configuration and the classes of its grants, `/repo/src/psion/oauth2/providers/base.py:20-66`. -/
structure Provider where
  cfg : Config
  grants : List GrantClass

/-- `add_hook(grant_cls, hook)`, `/repo/src/psion/oauth2/providers/base.py:68-85`. `table` is the `__hooks__` of the grant
classes of the library: the same dictionary for all of them. `cls = none` is `BaseGrant`. The hook is a class, instantiated with
the configuration of the provider once per matching grant and checkpoint. -/
def addHook (table : Hooks) (p : Provider) (cls : Option GrantClass) (hook : Config → Hook) : Hooks :=
  (p.grants.filter (fun g => decide (cls = none ∨ cls = some g))).foldl (fun t _ => t.add (hook p.cfg)) table

/-- The grant objects of a provider, which look hooks up in the shared table at run time. -/
def grantOf (env : OEnv) (cfg : Config) (table : Hooks) : GrantClass → Grant
  | .authorizationCode => authorizationCodeGrant env cfg table
  | .clientCredentials => clientCredentialsGrant env cfg
  | .refreshToken => refreshTokenGrant env cfg

/-- `provider.grants`. -/
def Provider.objects (env : OEnv) (table : Hooks) (p : Provider) : List Grant :=
  p.grants.map (grantOf env p.cfg table)

/-- `provider.authorize(request)`. -/
def Provider.authorize (env : OEnv) (table : Hooks) (p : Provider) (req : Request) : P Response :=
  authorizeEndpoint p.cfg (p.objects env table) req

/-- `provider.token(request)`. -/
def Provider.token (env : OEnv) (table : Hooks) (p : Provider) (req : Request) : P Response :=
  tokenEndpoint env (p.objects env table) req

/-- `provider.revoke(request)`. -/
def Provider.revoke (env : OEnv) (_p : Provider) (req : Request) : P (Option Response) := revokeEndpoint env req

/-- `provider.authorize.get_consent_data(request)`. -/
def Provider.consent (p : Provider) (req : Request) : P Consent := consentEndpoint p.cfg req

/-- `AuthorizationCodeFlow`, `/repo/src/psion/oidc/flows/authorization_code.py:13-26`. -/
def oidcHook (env : OEnv) (cfg : Config) : Hook where
  authorizationRequest := some oidcAuthorizationRequest
  tokenResponse := some (oidcTokenResponse env cfg)

end Psion
