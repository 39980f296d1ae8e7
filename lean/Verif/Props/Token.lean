import Verif.OAuth.OidcLemmas
import Verif.OAuth.TokenLemmas
import Verif.Props.ToyStore

/-!
# Properties C37-C42, C49-C51: what the token endpoint does

`Partial p tr` makes no assumption about the answers of the adapter (which may be exceptions) and includes executions that were
cut off at any point, so a theorem about the operations of all partial executions also covers crashes.
-/

namespace Psion.Props

open Psion Spec

/-- Every access token is created for a reason. -/
theorem access_justified {env : OEnv} {table : Hooks} (hb : Benign table) {p : Provider} {req : Request}
    {pre post : List Ev} {c : Client} {owner : Owner} {scopes : List PyStr} {ans : ORes PyStr}
    (h : Partial (p.token env table req) (pre ++ ⟨.createAccess c owner scopes, ans⟩ :: post)) :
    Justified env p req pre c owner scopes := token_op hb h

/-- Every refresh token is created for a reason. -/
theorem refresh_justified {env : OEnv} {table : Hooks} (hb : Benign table) {p : Provider} {req : Request}
    {pre post : List Ev} {c : Client} {u : Option User} {scopes : List PyStr} {ans : ORes PyStr}
    (h : Partial (p.token env table req) (pre ++ ⟨.createRefresh c u scopes, ans⟩ :: post)) :
    py! "refresh_token" ∈ c.grantTypes ∧ Justified env p req pre c (.user u) scopes := token_op hb h

/-! ## C38 -/

/-- C38: an access token is created only for a client that authenticated in a way that suits the requested grant, which is a
grant of the provider for which the client is registered. -/
theorem C38_grant_types (env : OEnv) (table : Hooks) (hb : Benign table) (p : Provider) (req : Request)
    (pre post : List Ev) (c : Client) (owner : Owner) (scopes : List PyStr) (ans : ORes PyStr)
    (h : Partial (p.token env table req) (pre ++ ⟨.createAccess c owner scopes, ans⟩ :: post)) :
    ∃ g ∈ p.grants, Dict.get req.data (py! "grant_type") = some (grantName g) ∧ grantName g ∈ c.grantTypes ∧
      Authenticated req (grantMethods g) pre c := by
  obtain ⟨g, h1, h2, h3, h4, -⟩ := access_justified hb h
  exact ⟨g, h1, h2, h3, h4⟩

/-- C38: a refresh token is created only for a client registered for `refresh_token`, under the same conditions. -/
theorem C38_refresh_tokens (env : OEnv) (table : Hooks) (hb : Benign table) (p : Provider) (req : Request)
    (pre post : List Ev) (c : Client) (u : Option User) (scopes : List PyStr) (ans : ORes PyStr)
    (h : Partial (p.token env table req) (pre ++ ⟨.createRefresh c u scopes, ans⟩ :: post)) :
    py! "refresh_token" ∈ c.grantTypes ∧ ∃ g ∈ p.grants,
      Dict.get req.data (py! "grant_type") = some (grantName g) ∧ grantName g ∈ c.grantTypes ∧
      Authenticated req (grantMethods g) pre c := by
  obtain ⟨h0, g, h1, h2, h3, h4, -⟩ := refresh_justified hb h
  exact ⟨h0, g, h1, h2, h3, h4⟩

/-- C38: nothing but the token creation is done with codes and tokens: the endpoint stores no code and revokes nothing, and looks
up a code or refresh token, or deletes a code, only for an authenticated client registered for the grant in question. -/
theorem C38_other_operations (env : OEnv) (table : Hooks) (hb : Benign table) (p : Provider) (req : Request)
    (pre post : List Ev) (ev : Ev) (h : Partial (p.token env table req) (pre ++ ev :: post)) :
    match ev.op with
    | .saveCode .. | .revoke .. => False
    | .getCode v | .deleteCode v => ∃ code c, Dict.get req.data (py! "code") = some code ∧ v = .str code ∧
        .authorizationCode ∈ p.grants ∧ Dict.get req.data (py! "grant_type") = some (py! "authorization_code") ∧
        py! "authorization_code" ∈ c.grantTypes ∧ Authenticated req none pre c
    | .getRefresh t => ∃ c, Dict.get req.data (py! "refresh_token") = some t ∧
        .refreshToken ∈ p.grants ∧ Dict.get req.data (py! "grant_type") = some (py! "refresh_token") ∧
        py! "refresh_token" ∈ c.grantTypes ∧ Authenticated req none pre c
    | _ => True := by
  have H := token_op hb h
  revert H
  cases ev.op <;> intro H
  case getCode v =>
    obtain ⟨code, c, h1, h2, hu⟩ := H
    exact ⟨code, c, h1, h2, hu.mem, hu.type, hu.registered, hu.auth⟩
  case deleteCode v =>
    obtain ⟨code, c, h1, h2, hu⟩ := H
    exact ⟨code, c, h1, h2, hu.mem, hu.type, hu.registered, hu.auth⟩
  case getRefresh t =>
    obtain ⟨c, h1, hu⟩ := H
    exact ⟨c, h1, hu.mem, hu.type, hu.registered, hu.auth⟩
  all_goals first | exact H | trivial

example : Benign Hooks.empty ∧ ∃ pre post c owner ans, Partial (toyProvider.token toyEnv Hooks.empty toyExchange)
    (pre ++ ⟨.createAccess c owner [py! "openid", py! "read"], ans⟩ :: post) :=
  ⟨benign_empty, toy_creates toyUsual toyExchange _ (by decide +kernel)⟩

example : (toyRun toyUsual toyExchange).1.any createsRefresh = true := by decide +kernel

/-- The hypothesis about the hooks holds for the hook of the library. -/
example : Benign (addHook Hooks.empty toyProvider (some .authorizationCode) (oidcHook toyEnv)) :=
  benign_addHook_oidc benign_empty _ _ _

/-! ## C37 -/

/-- The hooks concern the authorization code grant only. -/
theorem token_hooks_irrelevant {env : OEnv} {table : Hooks} {p : Provider} {req : Request}
    (h : Dict.get req.data (py! "grant_type") ≠ some (py! "authorization_code")) :
    p.token env table req = p.token env Hooks.empty req := by
  have hv : validateGrantType (p.objects env table) (Dict.get req.data (py! "grant_type")) =
      validateGrantType (p.objects env Hooks.empty) (Dict.get req.data (py! "grant_type")) := by
    unfold validateGrantType Provider.objects
    generalize Dict.get req.data (py! "grant_type") = gt at h ⊢
    match gt, h with
    | none, _ => rfl
    | some [], _ => rfl
    | some (ch :: s), h =>
      dsimp only
      rw [List.find?_map, List.find?_map]
      have hc : ((fun g : Grant => decide (g.grantType = some (ch :: s))) ∘ grantOf env p.cfg table) =
          ((fun g : Grant => decide (g.grantType = some (ch :: s))) ∘ grantOf env p.cfg Hooks.empty) := by
        funext g
        simp only [Function.comp_apply, grantOf_type]
      rw [hc]
      cases hf : List.find? ((fun g : Grant => decide (g.grantType = some (ch :: s))) ∘ grantOf env p.cfg Hooks.empty)
          p.grants with
      | none => rfl
      | some g =>
        have hg := List.find?_some hf
        simp only [Function.comp_apply, grantOf_type, decide_eq_true_eq] at hg
        cases g with
        | authorizationCode => exact absurd hg.symm h
        | clientCredentials => rfl
        | refreshToken => rfl
  unfold Provider.token tokenEndpoint tokenBody
  dsimp only
  rw [hv]

theorem grantName_inj {g g' : GrantClass} (h : grantName g = grantName g') : g = g' := by
  cases g <;> cases g' <;> first | rfl | exact absurd h (by decide)

/-- A token creation in a request of a known grant type. -/
theorem justified_of {env : OEnv} {p : Provider} {req : Request} {h : List Ev} {c : Client} {owner : Owner}
    {scopes : List PyStr} (H : Justified env p req h c owner scopes) {g : GrantClass}
    (hg : Dict.get req.data (py! "grant_type") = some (grantName g)) :
    Authenticated req (grantMethods g) h c ∧
      match (generalizing := false) g with
      | .authorizationCode => ∃ u, owner = .user (some u) ∧ CodeJustifies env req.data h c u scopes
      | .clientCredentials => owner = .client c ∧ CredentialsJustify p.cfg req.data c scopes
      | .refreshToken => ∃ u, owner = .user u ∧ RefreshJustifies p.cfg req.data h c u scopes := by
  obtain ⟨g', -, h2, -, h4, h5⟩ := H
  rw [hg] at h2
  have := grantName_inj (Option.some.inj h2)
  subst this
  exact ⟨h4, h5⟩

/-- C37: the client credentials grant creates an access token only for a client that presented its non-empty secret, and only on
behalf of that client. Any hooks may be registered. -/
theorem C37_confidential (env : OEnv) (table : Hooks) (p : Provider) (req : Request) (pre post : List Ev) (c : Client)
    (owner : Owner) (scopes : List PyStr) (ans : ORes PyStr)
    (hg : Dict.get req.data (py! "grant_type") = some (py! "client_credentials"))
    (h : Partial (p.token env table req) (pre ++ ⟨.createAccess c owner scopes, ans⟩ :: post)) :
    owner = .client c ∧ ∃ secret id, secret ≠ [] ∧ c.secret = some secret ∧ FoundClient pre id c ∧
      (Presents req .basic id (some secret) ∨ Presents req .post id (some secret)) := by
  rw [token_hooks_irrelevant (by rw [hg]; decide)] at h
  obtain ⟨⟨m, id, h1, h2, h3, h4⟩, h5, -⟩ := justified_of (g := .clientCredentials) (access_justified benign_empty h) hg
  refine ⟨h5, ?_⟩
  cases hs : c.secret with
  | none =>
    rw [hs] at h2
    cases h2
    rcases h4 with h4 | h4 | ⟨l, h4, h6⟩
    · cases h4
    · cases h4
    · cases h4
      exact absurd h6 (by decide)
  | some secret =>
    rw [hs] at h2
    refine ⟨secret, id, ?_, rfl, h1, ?_⟩
    · cases h2 <;> assumption
    · cases m with
      | basic => exact Or.inl h2
      | post => exact Or.inr h2
      | none_ => cases h2

/-- C37: it never creates a refresh token. -/
theorem C37_no_refresh_token (env : OEnv) (table : Hooks) (p : Provider) (req : Request) (pre post : List Ev) (c : Client)
    (u : Option User) (scopes : List PyStr) (ans : ORes PyStr)
    (hg : Dict.get req.data (py! "grant_type") = some (py! "client_credentials")) :
    ¬ Partial (p.token env table req) (pre ++ ⟨.createRefresh c u scopes, ans⟩ :: post) := by
  intro h
  rw [token_hooks_irrelevant (by rw [hg]; decide)] at h
  obtain ⟨-, h5, -⟩ := justified_of (g := .clientCredentials) (refresh_justified benign_empty h).2 hg
  cases h5

theorem createToken_get (cfg : Config) (access : PyStr) (refresh : Option PyStr) (scopes : Option (List PyStr)) :
    Dict.get (createToken cfg access refresh scopes) (py! "access_token") = some (.str access) ∧
    Dict.get (createToken cfg access refresh scopes) (py! "token_type") = some (.str (py! "Bearer")) ∧
    Dict.get (createToken cfg access refresh scopes) (py! "expires_in") = some (.int cfg.tokenLifespan) ∧
    Dict.get (createToken cfg access refresh scopes) (py! "refresh_token") = refresh.map .str ∧
    Dict.get (createToken cfg access refresh scopes) (py! "scope") =
      (match scopes with
      | some (s :: l) => some (.str (joinWith [32] (s :: l)))
      | _ => none) := by
  match refresh, scopes with
  | none, none => exact ⟨rfl, rfl, rfl, rfl, rfl⟩
  | none, some [] => exact ⟨rfl, rfl, rfl, rfl, rfl⟩
  | none, some (_ :: _) => exact ⟨rfl, rfl, rfl, rfl, rfl⟩
  | some _, none => exact ⟨rfl, rfl, rfl, rfl, rfl⟩
  | some _, some [] => exact ⟨rfl, rfl, rfl, rfl, rfl⟩
  | some _, some (_ :: _) => exact ⟨rfl, rfl, rfl, rfl, rfl⟩

theorem wf_createToken (cfg : Config) (access : PyStr) (refresh : Option PyStr) (scopes : Option (List PyStr)) :
    (Val.dict (createToken cfg access refresh scopes)).Wf := by
  match refresh, scopes with
  | none, none => exact ⟨by simp [createToken, fullDict, Val.isNone], by simp [createToken, fullDict, Val.isNone, Val.WfD, Val.Wf]⟩
  | none, some [] => exact ⟨by simp [createToken, fullDict, Val.isNone], by simp [createToken, fullDict, Val.isNone, Val.WfD, Val.Wf]⟩
  | none, some (_ :: _) => exact ⟨by simp [createToken, fullDict, Val.isNone], by simp [createToken, fullDict, Val.isNone, Val.WfD, Val.Wf]⟩
  | some _, none => exact ⟨by simp [createToken, fullDict, Val.isNone], by simp [createToken, fullDict, Val.isNone, Val.WfD, Val.Wf]⟩
  | some _, some [] => exact ⟨by simp [createToken, fullDict, Val.isNone], by simp [createToken, fullDict, Val.isNone, Val.WfD, Val.Wf]⟩
  | some _, some (_ :: _) => exact ⟨by simp [createToken, fullDict, Val.isNone], by simp [createToken, fullDict, Val.isNone, Val.WfD, Val.Wf]⟩

theorem jsonResponse_body {fe : FloatEnv} (hl : FloatLaws fe) {status : Nat} {hd : Dict PyStr PyStr} {d : Dict PyStr Val}
    {r : Response} (hw : (Val.dict d).Wf) (h : jsonResponse fe status hd (.dict d) = .ok r) :
    JsonBody fe r d := by
  unfold jsonResponse at h
  split at h
  · cases h
  · rename_i b hb
    cases h
    exact C11_json_roundtrip_bytes fe hl _ hw b hb

theorem jsonResponse_status {fe : FloatEnv} {status : Nat} {hd : Dict PyStr PyStr} {v : Val} {r : Response}
    (h : jsonResponse fe status hd v = .ok r) :
    r.status = status ∧ r.headers = parseHeaders (some (py! "application/json")) hd := by
  unfold jsonResponse at h
  split at h
  · cases h
  · cases h
    exact ⟨rfl, rfl⟩

/-- The members of an error body. -/
theorem dump_get (x : OErr) {k : PyStr} (hk : k ≠ py! "error" ∧ k ≠ py! "error_description" ∧ k ≠ py! "error_uri" ∧
    k ≠ py! "state") : Dict.get (ndictVal x.dump) k = none := by
  obtain ⟨h1, h2, h3, h4⟩ := hk
  rw [ndictVal_dump, Dict.get_eq_none_iff]
  intro hm
  obtain ⟨kv, hkv, rfl⟩ := List.mem_map.mp hm
  obtain ⟨q, hq, hs⟩ := List.mem_filterMap.mp hkv
  cases hv : q.2 with
  | none => rw [hv] at hs; cases hs
  | some t =>
    rw [hv] at hs
    cases hs
    simp only [OErr.params, List.mem_cons, List.not_mem_nil, or_false] at hq
    rcases hq with rfl | rfl | rfl | rfl
    · exact h1 rfl
    · exact h2 rfl
    · exact h3 rfl
    · exact h4 rfl

/-- The two kinds of responses. -/
theorem token_response {env : OEnv} {table : Hooks} (hb : Benign table) {p : Provider} {req : Request} {tr : List Ev}
    {r : Response} (h : Exec (p.token env table req) tr (.ok r)) :
    TokenOk env table p req tr r ∨ TokenErr env table p req tr r :=
  wpp_exec_ok h (wpp_token hb p req) answers_true

/-- C37: its responses contain no refresh token. -/
theorem C37_no_refresh_token_returned (env : OEnv) (hl : FloatLaws env.cr.fe) (table : Hooks) (p : Provider) (req : Request) (tr : List Ev)
    (r : Response) (hg : Dict.get req.data (py! "grant_type") = some (py! "client_credentials"))
    (h : Exec (p.token env table req) tr (.ok r)) :
    ∃ d, JsonBody env.cr.fe r d ∧ Dict.get d (py! "refresh_token") = none := by
  rw [token_hooks_irrelevant (by rw [hg]; decide)] at h
  rcases token_response benign_empty h with ⟨token, ⟨g, c, hu, hd⟩, hj⟩ | ⟨x, -, hj⟩
  · have ht := hu.type
    rw [hg] at ht
    have : GrantClass.clientCredentials = g := grantName_inj (Option.some.inj ht)
    subst this
    obtain ⟨scopes, access, -, -, rep, rfl, -⟩ := hd.done
    exact ⟨_, jsonResponse_body hl (wf_createToken _ _ _ _) hj, (createToken_get _ _ _ _).2.2.2.1⟩
  · have hb := (C62_error_body _ hl _ _ _ _ hj).2
    refine ⟨_, hb, ?_⟩
    have := dump_get x (k := py! "refresh_token") (by decide)
    rw [ndictVal_dump] at this
    exact this

example : Dict.get toyCredentials.data (py! "grant_type") = some (py! "client_credentials") ∧
    ∃ pre post c owner ans, Partial (toyProvider.token toyEnv Hooks.empty toyCredentials)
      (pre ++ ⟨.createAccess c owner [py! "write", py! "read"], ans⟩ :: post) :=
  ⟨by decide +kernel, toy_creates toyUsual toyCredentials _ (by decide +kernel)⟩

/-! ## C39, C40, C41 -/

/-- C39 (token endpoint): an access token is created from an authorization code only if the request has a verifier that belongs
to the stored challenge. -/
theorem C39_pkce (env : OEnv) (table : Hooks) (hb : Benign table) (p : Provider) (req : Request)
    (pre post : List Ev) (c : Client) (owner : Owner) (scopes : List PyStr) (ans : ORes PyStr)
    (hg : Dict.get req.data (py! "grant_type") = some (py! "authorization_code"))
    (h : Partial (p.token env table req) (pre ++ ⟨.createAccess c owner scopes, ans⟩ :: post)) :
    ∃ code ac verifier, Dict.get req.data (py! "code") = some code ∧ FoundCode pre (.str code) ac ∧
      Dict.get req.data (py! "code_verifier") = some verifier ∧
      ((ac.challengeMethod = py! "plain" ∧ ac.challenge = verifier) ∨
        (ac.challengeMethod = py! "S256" ∧ (∀ ch ∈ verifier, ch < 128) ∧
          ac.challenge = asciiStr (b64urlEncode (env.sha256 (verifier.map byte))))) := by
  obtain ⟨-, u, -, code, ac, uri, verifier, now, h1, h2, h3, h4, h5, h6, h7, h8, -⟩ :=
    justified_of (g := .authorizationCode) (access_justified hb h) hg
  exact ⟨code, ac, verifier, h1, h2, h7, h8⟩

/-- C39: the same for refresh tokens. -/
theorem C39_pkce_refresh (env : OEnv) (table : Hooks) (hb : Benign table) (p : Provider) (req : Request)
    (pre post : List Ev) (c : Client) (u : Option User) (scopes : List PyStr) (ans : ORes PyStr)
    (hg : Dict.get req.data (py! "grant_type") = some (py! "authorization_code"))
    (h : Partial (p.token env table req) (pre ++ ⟨.createRefresh c u scopes, ans⟩ :: post)) :
    ∃ code ac verifier, Dict.get req.data (py! "code") = some code ∧ FoundCode pre (.str code) ac ∧
      Dict.get req.data (py! "code_verifier") = some verifier ∧
      ((ac.challengeMethod = py! "plain" ∧ ac.challenge = verifier) ∨
        (ac.challengeMethod = py! "S256" ∧ (∀ ch ∈ verifier, ch < 128) ∧
          ac.challenge = asciiStr (b64urlEncode (env.sha256 (verifier.map byte))))) := by
  obtain ⟨-, u, -, code, ac, uri, verifier, now, h1, h2, h3, h4, h5, h6, h7, h8, -⟩ :=
    justified_of (g := .authorizationCode) (refresh_justified hb h).2 hg
  exact ⟨code, ac, verifier, h1, h2, h7, h8⟩

/-- A code with a challenge of the method `S256`. -/
def toyCodeS256 : AuthCode :=
  { toyCode [py! "read"] with
    challenge := asciiStr (b64urlEncode (toyEnv.sha256 (toyVerifier.map byte))), challengeMethod := py! "S256" }

example : (toyRun (toyAdapter toyClient toyCodeS256 (toyRefresh [])) toyExchange).1.any
    (createsAccess [py! "read"]) = true := by decide +kernel

/-- A wrong verifier is refused. -/
example : isResponse 400 (by! "{\"error\": \"invalid_grant\", \"error_description\": \"PKCE challenge failure.\"}")
    (toyRun (toyAdapter toyClient { toyCode [py! "read"] with challenge := py! "b" } (toyRefresh [])) toyExchange).2 = true := by
  decide +kernel

/-- C40: an access token is created from an authorization code only if the code was stored for the authenticated client and for
the redirect URI of the request, which is registered for the client; it is created for the stored user with the stored
scopes. -/
theorem C40_code_binding (env : OEnv) (table : Hooks) (hb : Benign table) (p : Provider) (req : Request)
    (pre post : List Ev) (c : Client) (owner : Owner) (scopes : List PyStr) (ans : ORes PyStr)
    (hg : Dict.get req.data (py! "grant_type") = some (py! "authorization_code"))
    (h : Partial (p.token env table req) (pre ++ ⟨.createAccess c owner scopes, ans⟩ :: post)) :
    ∃ code ac uri u, Dict.get req.data (py! "code") = some code ∧ FoundCode pre (.str code) ac ∧
      Authenticated req none pre c ∧ c.clientId = ac.clientId ∧
      Dict.get req.data (py! "redirect_uri") = some uri ∧ uri = ac.redirectUri ∧ uri ∈ c.redirectUris ∧
      FoundUser pre ac.userId (some u) ∧ owner = .user (some u) ∧ scopes = ac.scopes := by
  obtain ⟨ha, u, ho, code, ac, uri, verifier, now, h1, h2, h3, h4, h5, h6, h7, h8, h9, h10, h11, h12⟩ :=
    justified_of (g := .authorizationCode) (access_justified hb h) hg
  exact ⟨code, ac, uri, u, h1, h2, ha, h3.symm, h4, h5.symm, h6, h11, ho, h12⟩

/-- C40: the same for refresh tokens. -/
theorem C40_code_binding_refresh (env : OEnv) (table : Hooks) (hb : Benign table) (p : Provider) (req : Request)
    (pre post : List Ev) (c : Client) (user : Option User) (scopes : List PyStr) (ans : ORes PyStr)
    (hg : Dict.get req.data (py! "grant_type") = some (py! "authorization_code"))
    (h : Partial (p.token env table req) (pre ++ ⟨.createRefresh c user scopes, ans⟩ :: post)) :
    ∃ code ac uri u, Dict.get req.data (py! "code") = some code ∧ FoundCode pre (.str code) ac ∧
      Authenticated req none pre c ∧ c.clientId = ac.clientId ∧
      Dict.get req.data (py! "redirect_uri") = some uri ∧ uri = ac.redirectUri ∧ uri ∈ c.redirectUris ∧
      FoundUser pre ac.userId (some u) ∧ user = some u ∧ scopes = ac.scopes := by
  obtain ⟨ha, u, ho, code, ac, uri, verifier, now, h1, h2, h3, h4, h5, h6, h7, h8, h9, h10, h11, h12⟩ :=
    justified_of (g := .authorizationCode) (refresh_justified hb h).2 hg
  cases ho
  exact ⟨code, ac, uri, u, h1, h2, ha, h3.symm, h4, h5.symm, h6, h11, rfl, h12⟩

/-- A code of another client is refused. -/
example : isResponse 400 (by! "{\"error\": \"invalid_grant\", \"error_description\": \"Mismatching Client ID.\"}")
    (toyRun (toyAdapter toyClient { toyCode [py! "read"] with clientId := py! "c2" } (toyRefresh [])) toyExchange).2 = true := by
  decide +kernel

/-- C41: an access token is created from an authorization code or a refresh token only if the clock showed a time before the
expiration of that code or token during the request. -/
theorem C41_expiry (env : OEnv) (table : Hooks) (hb : Benign table) (p : Provider) (req : Request)
    (pre post : List Ev) (c : Client) (owner : Owner) (scopes : List PyStr) (ans : ORes PyStr)
    (h : Partial (p.token env table req) (pre ++ ⟨.createAccess c owner scopes, ans⟩ :: post)) :
    (Dict.get req.data (py! "grant_type") = some (py! "authorization_code") →
      ∃ code ac now, Dict.get req.data (py! "code") = some code ∧ FoundCode pre (.str code) ac ∧
        ReadClock pre now ∧ now < ac.expiration) ∧
    (Dict.get req.data (py! "grant_type") = some (py! "refresh_token") →
      ∃ token rt now, Dict.get req.data (py! "refresh_token") = some token ∧ FoundRefresh pre token rt ∧
        ReadClock pre now ∧ now < rt.expiration) := by
  constructor
  · intro hg
    obtain ⟨ha, u, ho, code, ac, uri, verifier, now, h1, h2, h3, h4, h5, h6, h7, h8, h9, h10, h11, h12⟩ :=
      justified_of (g := .authorizationCode) (access_justified hb h) hg
    exact ⟨code, ac, now, h1, h2, h9, h10⟩
  · intro hg
    obtain ⟨ha, u, ho, token, rt, now, base, h1, h2, h3, h4, h5, -⟩ :=
      justified_of (g := .refreshToken) (access_justified hb h) hg
    exact ⟨token, rt, now, h1, h2, h4, h5⟩

/-- C41: the same for refresh tokens. -/
theorem C41_expiry_refresh (env : OEnv) (table : Hooks) (hb : Benign table) (p : Provider) (req : Request)
    (pre post : List Ev) (c : Client) (u : Option User) (scopes : List PyStr) (ans : ORes PyStr)
    (h : Partial (p.token env table req) (pre ++ ⟨.createRefresh c u scopes, ans⟩ :: post)) :
    (Dict.get req.data (py! "grant_type") = some (py! "authorization_code") →
      ∃ code ac now, Dict.get req.data (py! "code") = some code ∧ FoundCode pre (.str code) ac ∧
        ReadClock pre now ∧ now < ac.expiration) ∧
    (Dict.get req.data (py! "grant_type") = some (py! "refresh_token") →
      ∃ token rt now, Dict.get req.data (py! "refresh_token") = some token ∧ FoundRefresh pre token rt ∧
        ReadClock pre now ∧ now < rt.expiration) := by
  constructor
  · intro hg
    obtain ⟨ha, u, ho, code, ac, uri, verifier, now, h1, h2, h3, h4, h5, h6, h7, h8, h9, h10, h11, h12⟩ :=
      justified_of (g := .authorizationCode) (refresh_justified hb h).2 hg
    exact ⟨code, ac, now, h1, h2, h9, h10⟩
  · intro hg
    obtain ⟨ha, u, ho, token, rt, now, base, h1, h2, h3, h4, h5, -⟩ :=
      justified_of (g := .refreshToken) (refresh_justified hb h).2 hg
    exact ⟨token, rt, now, h1, h2, h4, h5⟩

/-- At the very time of its expiration a code is refused. -/
example : isResponse 400 (by! "{\"error\": \"invalid_grant\", \"error_description\": \"Expired Authorization Code.\"}")
    (toyRun (toyAdapter toyClient { toyCode [py! "read"] with expiration := 100 } (toyRefresh [])) toyExchange).2 = true := by
  decide +kernel

/-! ## C42 -/

/-- C42: whenever the authorization code grant is run with a code, its last operation is the deletion of that code, whatever the
outcome and whatever the adapter answered or raised. -/
theorem C42_code_deleted (env : OEnv) (cfg : Config) (table : Hooks) (hb : Benign table) (data : Dict PyStr PyStr)
    (client : Client) (code : PyStr) (hc : Dict.get data (py! "code") = some code) (tr : List Ev)
    (out : ORes (Dict PyStr Val)) (h : Exec (codeToken env cfg table data client) tr out) :
    ∃ init ans, tr = init ++ [⟨.deleteCode (.str code), ans⟩] := by
  have hw : WpP (fun _ _ => True) (fun _ _ => True) (fun h _ => EndsDeleting code h) (fun h _ => EndsDeleting code h) []
      (codeToken env cfg table data client) := by
    refine wpp_codeToken hb (fun _ _ _ => trivial) (fun _ _ _ _ => trivial) (fun _ _ _ _ => trivial)
      (fun _ _ _ _ _ => trivial) (fun _ _ _ _ _ _ => trivial) ?_ ?_ ?_
    · intro h' _ code' _ _ hc' he
      rw [hc] at hc'; cases hc'; exact he.deleting
    · intro h' _ code' _ _ hc' he
      rw [hc] at hc'; cases hc'; exact he
    · intro h' _ hc'
      rw [hc] at hc'; cases hc'
  cases out with
  | ok a => exact wpp_exec_ok h hw answers_true
  | error e => exact wpp_exec_error h hw answers_true

/-- C42: every token request with the grant type `authorization_code` and a code ends with the deletion of that code, unless it
stopped before the grant: without any operation, or after nothing but the lookup of the client. -/
theorem C42_endpoint (env : OEnv) (table : Hooks) (hb : Benign table) (p : Provider) (req : Request) (code : PyStr)
    (hg : Dict.get req.data (py! "grant_type") = some (py! "authorization_code"))
    (hc : Dict.get req.data (py! "code") = some code) (tr : List Ev) (out : ORes Response)
    (h : Exec (p.token env table req) tr out) :
    (∃ init ans, tr = init ++ [⟨.deleteCode (.str code), ans⟩]) ∨ tr = [] ∨ ∃ id a, tr = [⟨.findClient id, a⟩] := by
  have hw : WpP (fun _ _ => True) (fun _ _ => True)
      (fun h _ => EndsDeleting code h ∨ h = [] ∨ ∃ id a, h = [⟨.findClient id, a⟩])
      (fun h _ => EndsDeleting code h ∨ h = [] ∨ ∃ id a, h = [⟨.findClient id, a⟩]) []
      (p.token env table req) := by
    unfold Provider.token tokenEndpoint
    rw [wpp_catch]
    refine wpp_mono (wpp_token_deletes hb hg hc) (fun _ _ h => h) (fun _ _ h => Or.inl h) ?_
    intro h e he
    cases e with
    | py x => exact he
    | oauth x =>
      dsimp only [caught]
      rw [wpp_lift, post_liftRes]
      exact ⟨fun _ _ => he, fun _ _ => he⟩
  cases out with
  | ok a => exact wpp_exec_ok h hw answers_true
  | error e => exact wpp_exec_error h hw answers_true

/-- C42: a request that was issued any token ended with the deletion. -/
theorem C42_success (env : OEnv) (table : Hooks) (hb : Benign table) (p : Provider) (req : Request)
    (hg : Dict.get req.data (py! "grant_type") = some (py! "authorization_code")) (tr : List Ev) (out : ORes Response)
    (h : Exec (p.token env table req) tr out) (c : Client) (owner : Owner) (scopes : List PyStr) (ans : ORes PyStr)
    (hm : (⟨.createAccess c owner scopes, ans⟩ : Ev) ∈ tr) :
    ∃ code, Dict.get req.data (py! "code") = some code ∧
      ∃ init ans, tr = init ++ [⟨.deleteCode (.str code), ans⟩] := by
  obtain ⟨pre, post, heq⟩ := List.append_of_mem hm
  have hp := exec_partial h
  rw [heq] at hp
  obtain ⟨code, ac, uri, u, h1, -⟩ := C40_code_binding env table hb p req pre post c owner scopes ans hg hp
  refine ⟨code, h1, ?_⟩
  rcases C42_endpoint env table hb p req code hg h1 tr out h with h | rfl | ⟨id, a, rfl⟩
  · exact h
  · exact absurd hm List.not_mem_nil
  · cases List.mem_singleton.mp hm

example : ((toyRun toyUsual toyExchange).1.getLast?.map (deletesCode (py! "abc"))) = some true := by decide +kernel

/-- Also when the code belongs to another client. -/
example : ((toyRun (toyAdapter toyClient { toyCode [py! "read"] with clientId := py! "c2" } (toyRefresh []))
    toyExchange).1.getLast?.map (deletesCode (py! "abc"))) = some true := by decide +kernel

/-! ## C49 (token endpoint) -/

/-- C49: in a client credentials request, explicitly requested scopes are supported by the provider and allowed for the client,
and the scopes handed to the token creation are exactly what the client allows. Any hooks may be registered. -/
theorem C49_client_credentials (env : OEnv) (table : Hooks) (p : Provider) (req : Request)
    (pre post : List Ev) (c : Client) (owner : Owner) (scopes : List PyStr) (ans : ORes PyStr)
    (hg : Dict.get req.data (py! "grant_type") = some (py! "client_credentials"))
    (h : Partial (p.token env table req) (pre ++ ⟨.createAccess c owner scopes, ans⟩ :: post)) :
    (∀ text ws, Dict.get req.data (py! "scope") = some text → text ≠ [] → Words text ws →
      (∀ s ∈ ws, s ∈ p.cfg.scopes ∧ s ∈ scopes) ∧ c.allowedScopes (strList ws) = .ok scopes) ∧
    ((Dict.get req.data (py! "scope") = none ∨ Dict.get req.data (py! "scope") = some []) →
      c.allowedScopes .none = .ok scopes) := by
  rw [token_hooks_irrelevant (by rw [hg]; decide)] at h
  obtain ⟨-, -, hj⟩ := justified_of (g := .clientCredentials) (access_justified benign_empty h) hg
  constructor
  · intro text ws ht hne hw
    rcases hj with ⟨h1 | h1, -⟩ | ⟨text', ws', h1, h2, h3, h4, h5, h6⟩
    · rw [ht] at h1; cases h1
    · rw [ht] at h1; cases h1; exact absurd rfl hne
    · rw [ht] at h1
      cases h1
      rw [words_iff] at hw h3
      rw [hw] at h3
      subst h3
      exact ⟨fun s hs => ⟨h4 s hs, h6 s hs⟩, h5⟩
  · intro hn
    rcases hj with ⟨-, h1⟩ | ⟨text', ws', h1, h2, -⟩
    · exact h1
    · rcases hn with hn | hn <;> rw [h1] at hn <;> cases hn
      exact absurd rfl h2

/-- C49: in a refresh request, the scopes handed to the token creation are what the client allows of scopes of the refresh
token. Any hooks may be registered. -/
theorem C49_refresh (env : OEnv) (table : Hooks) (p : Provider) (req : Request)
    (pre post : List Ev) (c : Client) (owner : Owner) (scopes : List PyStr) (ans : ORes PyStr)
    (hg : Dict.get req.data (py! "grant_type") = some (py! "refresh_token"))
    (h : Partial (p.token env table req) (pre ++ ⟨.createAccess c owner scopes, ans⟩ :: post)) :
    ∃ base, c.allowedScopes (strList base) = .ok scopes ∧
      ∀ text ws, Dict.get req.data (py! "scope") = some text → Words text ws → ws ≠ [] →
        ∀ s, s ∈ ws → s ∈ p.cfg.scopes ∧ s ∈ base := by
  rw [token_hooks_irrelevant (by rw [hg]; decide)] at h
  obtain ⟨-, u, -, token, rt, now, base, h1, h2, h3, h4, h5, h6, h7, h8, h9, h10⟩ :=
    justified_of (g := .refreshToken) (access_justified benign_empty h) hg
  refine ⟨base, h10, ?_⟩
  intro text ws ht hw hne s hs
  obtain ⟨ha, hb⟩ := h8 text ws ht hw hne
  exact ⟨hb s hs, (ha s).mpr hs⟩

/-! ## C50 -/

/-- C50: a refresh request creates an access token only for the client and user of the stored refresh token, and only with
scopes that are scopes of the refresh token, and among the requested ones if any are requested. Any hooks may be registered. -/
theorem C50_refresh_narrows (env : OEnv) (table : Hooks) (p : Provider) (req : Request)
    (pre post : List Ev) (c : Client) (owner : Owner) (scopes : List PyStr) (ans : ORes PyStr)
    (hg : Dict.get req.data (py! "grant_type") = some (py! "refresh_token")) (hn : Narrows c)
    (h : Partial (p.token env table req) (pre ++ ⟨.createAccess c owner scopes, ans⟩ :: post)) :
    ∃ token rt u, Dict.get req.data (py! "refresh_token") = some token ∧ FoundRefresh pre token rt ∧
      rt.clientId = c.clientId ∧ Authenticated req none pre c ∧ FoundUser pre rt.userId u ∧ owner = .user u ∧
      (∀ s ∈ scopes, s ∈ rt.scopes) ∧
      ∀ text ws, Dict.get req.data (py! "scope") = some text → Words text ws → ws ≠ [] → ∀ s ∈ scopes, s ∈ ws := by
  rw [token_hooks_irrelevant (by rw [hg]; decide)] at h
  obtain ⟨ha, u, ho, token, rt, now, base, h1, h2, h3, h4, h5, h6, h7, h8, h9, h10⟩ :=
    justified_of (g := .refreshToken) (access_justified benign_empty h) hg
  refine ⟨token, rt, u, h1, h2, h3, ha, h6, ho, fun s hs => h7 s (hn base scopes h10 s hs), ?_⟩
  intro text ws ht hw hne s hs
  exact ((h8 text ws ht hw hne).1 s).mp (hn base scopes h10 s hs)

/-- C50: the same for refresh tokens. -/
theorem C50_refresh_narrows_refresh (env : OEnv) (table : Hooks) (p : Provider) (req : Request)
    (pre post : List Ev) (c : Client) (user : Option User) (scopes : List PyStr) (ans : ORes PyStr)
    (hg : Dict.get req.data (py! "grant_type") = some (py! "refresh_token")) (hn : Narrows c)
    (h : Partial (p.token env table req) (pre ++ ⟨.createRefresh c user scopes, ans⟩ :: post)) :
    ∃ token rt, Dict.get req.data (py! "refresh_token") = some token ∧ FoundRefresh pre token rt ∧
      rt.clientId = c.clientId ∧ Authenticated req none pre c ∧ FoundUser pre rt.userId user ∧
      (∀ s ∈ scopes, s ∈ rt.scopes) ∧
      ∀ text ws, Dict.get req.data (py! "scope") = some text → Words text ws → ws ≠ [] → ∀ s ∈ scopes, s ∈ ws := by
  rw [token_hooks_irrelevant (by rw [hg]; decide)] at h
  obtain ⟨ha, u, ho, token, rt, now, base, h1, h2, h3, h4, h5, h6, h7, h8, h9, h10⟩ :=
    justified_of (g := .refreshToken) (refresh_justified benign_empty h).2 hg
  cases ho
  refine ⟨token, rt, h1, h2, h3, ha, h6, fun s hs => h7 s (hn base scopes h10 s hs), ?_⟩
  intro text ws ht hw hne s hs
  exact ((h8 text ws ht hw hne).1 s).mp (hn base scopes h10 s hs)

theorem toyClient_narrows : Narrows toyClient := by
  intro l r h s hs
  simp only [toyClient, strList, Except.ok.injEq] at h
  subst h
  have := (List.mem_filter.mp hs).1
  simp only [List.filterMap_map, List.mem_filterMap, Function.comp_apply, Option.some.injEq] at this
  obtain ⟨a, ha, rfl⟩ := this
  exact ha

example : Narrows toyClient ∧ ∃ pre post c owner ans,
    Partial (toyProvider.token toyEnv Hooks.empty toyRefreshRequest)
      (pre ++ ⟨.createAccess c owner [py! "read"], ans⟩ :: post) :=
  ⟨toyClient_narrows, toy_creates toyUsual toyRefreshRequest _ (by decide +kernel)⟩

/-- A broader request is refused. -/
example : isResponse 400 (by! "{\"error\": \"invalid_scope\", \"error_description\": \"Invalid broader scope.\"}")
    (toyRun toyUsual (toyPost (by! "grant_type=refresh_token&refresh_token=r1&scope=read+openid"))).2 = true := by
  decide +kernel

/-! ## C51 -/

/-- What C51 says about a successful response `r` to a refresh request: it belongs to a stored refresh token and to created
access token, and reports the scopes if they differ from those of the refresh token. -/
def ReportsScopes (fe : FloatEnv) (req : Request) (tr : List Ev) (r : Response) (ok : List PyStr → Prop) : Prop :=
  ∃ token rt c owner scopes access d, Dict.get req.data (py! "refresh_token") = some token ∧ FoundRefresh tr token rt ∧
    (⟨.createAccess c owner scopes, .ok access⟩ : Ev) ∈ tr ∧ JsonBody fe r d ∧
    Dict.get d (py! "access_token") = some (.str access) ∧
    (scopes = rt.scopes → Dict.get d (py! "scope") = none) ∧
    (scopes ≠ rt.scopes → ok scopes → Dict.get d (py! "scope") = some (.str (joinWith [32] scopes)))

/-- C51 restricted to non-empty scopes: a refresh reports the granted scopes exactly when they differ from those of the refresh
token, if any scope is granted at all. What is missing: a refresh that grants no scope of a refresh token with scopes does not
say so (`C51_empty_scope_refuted`). -/
theorem C51_scope_reported_partial (env : OEnv) (hl : FloatLaws env.cr.fe) (table : Hooks) (p : Provider) (req : Request) (tr : List Ev) (r : Response)
    (hg : Dict.get req.data (py! "grant_type") = some (py! "refresh_token"))
    (h : Exec (p.token env table req) tr (.ok r)) (hs : r.status = 200) :
    ReportsScopes env.cr.fe req tr r (fun scopes => scopes ≠ []) := by
  rw [token_hooks_irrelevant (by rw [hg]; decide)] at h
  rcases token_response benign_empty h with ⟨token, ⟨g, c, hu, hd⟩, hj⟩ | ⟨x, -, hj⟩
  · have ht := hu.type
    rw [hg] at ht
    have : GrantClass.refreshToken = g := grantName_inj (Option.some.inj ht)
    subst this
    obtain ⟨text, rt, user, scopes, access, refresh, h1, h2, h3, h4, h5, h6, h7, rfl⟩ := hd.done
    rw [del_refresh] at h1
    obtain ⟨g1, -, -, -, g5⟩ := createToken_get p.cfg access refresh (if scopes = rt.scopes then none else some scopes)
    refine ⟨text, rt, c, _, scopes, access, _, h1, h2, h5, jsonResponse_body hl (wf_createToken _ _ _ _) hj, g1, ?_, ?_⟩
    · intro he
      rw [g5, if_pos he]
    · intro hne hok
      rw [g5, if_neg hne]
      obtain ⟨s, l, rfl⟩ := List.exists_cons_of_ne_nil hok
      rfl
  · rw [(jsonResponse_status hj).1] at hs
    cases hs

/-- C51 is false: a client that is no longer allowed any scope of the refresh token gets an access token without scopes, and the
response does not say so. -/
theorem C51_empty_scope_refuted :
    ¬ ∀ (env : OEnv) (_ : FloatLaws env.cr.fe) (p : Provider) (req : Request) (tr : List Ev) (r : Response),
      Dict.get req.data (py! "grant_type") = some (py! "refresh_token") →
      Exec (p.token env Hooks.empty req) tr (.ok r) → r.status = 200 →
      ReportsScopes env.cr.fe req tr r (fun _ => True) := by
  intro H
  let orc := toyAdapter toyClient (toyCode []) (toyRefresh [py! "gone"])
  let req := toyPost (by! "grant_type=refresh_token&refresh_token=r1")
  have hx := toyRun_exec orc req
  have hr : (match (toyRun orc req).2 with
      | .ok r => decide (r.status = 200 ∧ r.body = by!
          "{\"access_token\": \"at1\", \"token_type\": \"Bearer\", \"expires_in\": 3600, \"refresh_token\": \"rt1\"}")
      | .error _ => false) = true := by decide +kernel
  have hfound : (toyRun orc req).1.all (fun ev => match ev with
      | ⟨.getRefresh _, .ok a⟩ => decide (a = some (toyRefresh [py! "gone"]))
      | ⟨.createAccess _ _ s, _⟩ => decide (s = [])
      | _ => true) = true := by decide +kernel
  generalize toyRun orc req = x at hx hr hfound
  match x, hx, hr, hfound with
  | ⟨tr, .ok r⟩, hx, hr, hfound =>
    simp only [decide_eq_true_eq] at hr
    obtain ⟨token, rt, c, owner, scopes, access, d, h1, h2, h3, h4, h5, h6, h7⟩ :=
      H toyEnv toyFloat_laws toyProvider req tr r (by decide +kernel) hx hr.1
    rw [List.all_eq_true] at hfound
    have e1 := hfound _ h2
    have e2 := hfound _ h3
    simp only [decide_eq_true_eq, Option.some.injEq] at e1 e2
    subst e1 e2
    have h8 := h7 (by decide) trivial
    unfold JsonBody at h4
    rw [hr.2] at h4
    have h9 : (match jsonLoads toyFloat (by!
        "{\"access_token\": \"at1\", \"token_type\": \"Bearer\", \"expires_in\": 3600, \"refresh_token\": \"rt1\"}") with
      | .ok (.dict d) => !Dict.mem d (py! "scope")
      | _ => false) = true := by decide +kernel
    change jsonLoads toyFloat _ = _ at h4
    rw [h4] at h9
    simp [Dict.mem, h8] at h9

end Psion.Props
