import Verif.OAuth.SuccessLemmas
import Verif.Props.TokenAnswers

/-!
# Property C76: the token endpoint serves legitimate requests
-/

namespace Psion.Props

open Psion Spec

/-- C76, client credentials: a client that is registered for the grant, identifies itself with its secret and asks for scopes
that are supported and allowed (or for none) gets an access token for itself, with exactly the scopes that it asked for (or with
those that the client object gives it by default). -/
theorem C76_client_credentials (env : OEnv) (hl : FloatLaws env.cr.fe) (table : Hooks) (p : Provider) (req : Request)
    (tr : List Ev) (out : ORes Response) (m : AuthMethod) (id : PyStr) (c : Client) (allowed : List PyStr)
    (hg : .clientCredentials ∈ p.grants) (htype : Dict.get req.data (py! "grant_type") = some (py! "client_credentials"))
    (hi : Identifies req m id c) (hm : m ≠ .none_) (hreg : py! "client_credentials" ∈ c.grantTypes)
    (hw : Works tr id c (.client c) (fun l => c.allowedScopes .none = .ok l ∨ ∀ s ∈ l, s ∈ allowed))
    (hp : Permits c allowed)
    (hs : (Dict.get req.data (py! "scope") = none ∨ Dict.get req.data (py! "scope") = some []) ∧
        (∃ scopes, c.allowedScopes .none = .ok scopes) ∨
      ∃ text ws, Dict.get req.data (py! "scope") = some text ∧ text ≠ [] ∧ Words text ws ∧
        ∀ s ∈ ws, s ∈ p.cfg.scopes ∧ s ∈ allowed)
    (h : Exec (p.token env table req) tr out) :
    ∃ r d scopes, out = .ok r ∧ HandsOut env.cr.fe p.cfg tr r d c (.client c) scopes ∧
      Dict.get d (py! "refresh_token") = none ∧
      ((Dict.get req.data (py! "scope") = none ∨ Dict.get req.data (py! "scope") = some []) →
        c.allowedScopes .none = .ok scopes) ∧
      (∀ text ws, Dict.get req.data (py! "scope") = some text → text ≠ [] → Words text ws → ∀ s, s ∈ scopes ↔ s ∈ ws) := by
  have hallow : Allows (grantMethods .clientCredentials) m := by
    refine Or.inr (Or.inr ⟨_, rfl, ?_⟩)
    cases m with
    | basic => decide
    | post => decide
    | none_ => exact absurd rfl hm
  have key : ∃ requested scopes, scopeParam (Dict.del req.data (py! "grant_type")) = requested ∧
      validateRequestedScopes env p.cfg requested c .none = .ok () ∧ c.allowedScopes requested = .ok scopes ∧
      (c.allowedScopes .none = .ok scopes ∨ ∀ s ∈ scopes, s ∈ allowed) ∧
      ((Dict.get req.data (py! "scope") = none ∨ Dict.get req.data (py! "scope") = some []) →
        c.allowedScopes .none = .ok scopes) ∧
      (∀ text ws, Dict.get req.data (py! "scope") = some text → text ≠ [] → Words text ws → ∀ s, s ∈ scopes ↔ s ∈ ws) := by
    rcases hs with ⟨hn, scopes, hsc⟩ | ⟨text, ws, ht, hne, hwords, hall⟩
    · refine ⟨.none, scopes, ?_, rfl, hsc, Or.inl hsc, fun _ => hsc, ?_⟩
      · unfold scopeParam
        rw [if_pos]
        rw [blank_eq_true, del_scope]
        exact hn
      · intro text ws ht hne
        rcases hn with hn | hn
        · rw [hn] at ht; cases ht
        · rw [hn] at ht; cases ht; exact absurd rfl hne
    · obtain ⟨scopes, hsc, hmem⟩ := hp ws
      refine ⟨strList ws, scopes, ?_, validateRequestedScopes_served hp (fun s hs => (hall s hs).1) (fun s hs => (hall s hs).2),
        hsc, Or.inr (fun s hs => ((hmem s).mp hs).2), ?_, ?_⟩
      · unfold scopeParam
        rw [if_neg, del_scope, ht]
        · dsimp only [Option.getD]
          rw [words_iff.mp hwords]
        · rw [Bool.not_eq_true, blank_eq_false, del_scope]
          exact ⟨text, ht, hne⟩
      · intro hn
        rcases hn with hn | hn
        · rw [hn] at ht; cases ht
        · rw [hn] at ht; cases ht; exact absurd rfl hne
      · intro text' ws' ht' hne' hwords' s
        rw [ht] at ht'
        cases ht'
        have : ws' = ws := by rw [← words_iff.mp hwords, ← words_iff.mp hwords']
        rw [this, hmem]
        exact ⟨fun h => h.1, fun h => ⟨h, (hall s h).2⟩⟩
  obtain ⟨requested, scopes, h1, h2, h3, hS, h4, h5⟩ := key
  obtain ⟨r, hr, hst, d, hd, access, ha, hmem⟩ := returns_exec (returns_token hl (g := .clientCredentials) hg htype hi hallow
    hreg hw.client (returns_credentials h1 h2 h3 (fun r => hw.access _ r hS))) h
  exact ⟨r, d, scopes, hr, ⟨hst, hd, access, ha, hmem.access, hmem.type, hmem.lifespan⟩, hmem.refresh, h4, h5⟩

/-- C76, authorization code: a client that is registered for the grant, identifies itself, and presents a stored code of its own
that has not expired, together with the redirect URI of the authorization request and the verifier for the code challenge, gets an
access token for the user of the code with the scopes of the code, and a refresh token if it is registered for that. -/
theorem C76_authorization_code (env : OEnv) (hl : FloatLaws env.cr.fe) (table : Hooks) (hb : Benign table) (p : Provider)
    (req : Request) (tr : List Ev) (out : ORes Response) (m : AuthMethod) (id : PyStr) (c : Client)
    (code uri verifier : PyStr) (ac : AuthCode) (user : User)
    (hg : .authorizationCode ∈ p.grants) (htype : Dict.get req.data (py! "grant_type") = some (py! "authorization_code"))
    (hi : Identifies req m id c) (hreg : py! "authorization_code" ∈ c.grantTypes)
    (hw : Works tr id c (.user (some user)) (fun l => l = ac.scopes))
    (hh : HooksWork table tr c user ac.scopes)
    (hcode : Dict.get req.data (py! "code") = some code) (huri : Dict.get req.data (py! "redirect_uri") = some uri)
    (hver : Dict.get req.data (py! "code_verifier") = some verifier) (hne : code ≠ [] ∧ uri ≠ [] ∧ verifier ≠ [])
    (hfound : ∀ r, (⟨.getCode (.str code), r⟩ : Ev) ∈ tr → r = .ok (some ac)) (hcl : ac.clientId = c.clientId)
    (hau : ac.redirectUri = uri) (hru : uri ∈ c.redirectUris) (hpk : PkceOk env ac verifier)
    (hnow : ∀ r, (⟨.now, r⟩ : Ev) ∈ tr → ∃ t : Int, r = .ok t ∧ t < ac.expiration)
    (huser : ∀ r, (⟨.findUser ac.userId, r⟩ : Ev) ∈ tr → r = .ok (some user))
    (hdel : ∀ r, (⟨.deleteCode (.str code), r⟩ : Ev) ∈ tr → r = .ok ())
    (h : Exec (p.token env table req) tr out) :
    ∃ r d, out = .ok r ∧ HandsOut env.cr.fe p.cfg tr r d c (.user (some user)) ac.scopes ∧
      HandsOutRefresh tr d c (some user) ac.scopes := by
  obtain ⟨r, hr, hst, d, hd, access, refresh, ha, hmem, href⟩ := returns_exec (returns_token hl (g := .authorizationCode) hg htype
    hi (Or.inl rfl) hreg hw.client (returns_code (cfg := p.cfg) hb hh (by rw [del_code]; exact hcode) (by rw [del_uri]; exact huri)
      (by rw [del_verifier]; exact hver) hne hfound hcl hau hru hpk hnow huser hdel hw)) h
  exact ⟨r, d, hr, ⟨hst, hd, access, ha, hmem.access, hmem.type, hmem.lifespan⟩, href⟩

/-- C76, refresh token: a client that is registered for the grant, identifies itself and presents a stored refresh token of its own
that has not expired gets an access token for the user of the refresh token. If it asks for scopes, they must be supported,
allowed and among those of the refresh token, and the new token has exactly these. Otherwise it has those scopes of the refresh
token that are still allowed. The client also gets a new refresh token. -/
theorem C76_refresh_token (env : OEnv) (hl : FloatLaws env.cr.fe) (table : Hooks) (p : Provider)
    (req : Request) (tr : List Ev) (out : ORes Response) (m : AuthMethod) (id : PyStr) (c : Client)
    (token : PyStr) (rt : RefreshTok) (user : User) (allowed ws : List PyStr)
    (hg : .refreshToken ∈ p.grants) (htype : Dict.get req.data (py! "grant_type") = some (py! "refresh_token"))
    (hi : Identifies req m id c) (hreg : py! "refresh_token" ∈ c.grantTypes)
    (hw : Works tr id c (.user (some user)) (fun l => ∀ s ∈ l, s ∈ allowed))
    (hp : Permits c allowed) (hask : Asks req.data ws)
    (hws : ∀ s ∈ ws, s ∈ p.cfg.scopes ∧ s ∈ allowed ∧ s ∈ rt.scopes)
    (htok : Dict.get req.data (py! "refresh_token") = some token) (hne : token ≠ [])
    (hfound : ∀ r, (⟨.getRefresh token, r⟩ : Ev) ∈ tr → r = .ok (some rt)) (hcl : rt.clientId = c.clientId)
    (hnow : ∀ r, (⟨.now, r⟩ : Ev) ∈ tr → ∃ t : Int, r = .ok t ∧ t < rt.expiration)
    (huser : ∀ r, (⟨.findUser rt.userId, r⟩ : Ev) ∈ tr → r = .ok (some user))
    (h : Exec (p.token env table req) tr out) :
    ∃ r d scopes t, out = .ok r ∧ HandsOut env.cr.fe p.cfg tr r d c (.user (some user)) scopes ∧
      (⟨.createRefresh c (some user) scopes, .ok t⟩ : Ev) ∈ tr ∧ Dict.get d (py! "refresh_token") = some (.str t) ∧
      (ws = [] → ∀ s, s ∈ scopes ↔ s ∈ rt.scopes ∧ s ∈ allowed) ∧ (ws ≠ [] → ∀ s, s ∈ scopes ↔ s ∈ ws) := by
  have hask' : Asks (Dict.del req.data (py! "grant_type")) ws := by
    unfold Asks
    rw [del_scope]
    exact hask
  obtain ⟨r, hr, hst, d, hd, scopes, access, refresh, h1, h2, ha, hmem, href⟩ := returns_exec (returns_token hl
    (g := .refreshToken) hg htype hi (Or.inl rfl) hreg hw.client (returns_refresh (cfg := p.cfg) (by rw [del_refresh]; exact htok) hne
      hfound hcl hnow huser hp hask' (fun s hs => (hws s hs).1) (fun s hs => (hws s hs).2.1) (fun s hs => (hws s hs).2.2)
      hw)) h
  rcases href with ⟨-, t, ht, hdt⟩ | ⟨hno, -⟩
  · exact ⟨r, d, scopes, t, hr, ⟨hst, hd, access, ha, hmem.access, hmem.type, hmem.lifespan⟩, ht, hdt, h1, h2⟩
  · exact absurd hreg hno

/-! ### The hypotheses are satisfiable -/

theorem toyClient_permits : Permits toyClient [py! "openid", py! "read", py! "write"] := by
  intro l
  refine ⟨_, rfl, ?_⟩
  intro s
  simp only [List.mem_filter, List.mem_filterMap, List.mem_map, decide_eq_true_eq]
  constructor
  · rintro ⟨⟨v, ⟨t, ht, rfl⟩, hv⟩, hs⟩
    cases hv
    exact ⟨ht, hs⟩
  · rintro ⟨h1, h2⟩
    exact ⟨⟨.str s, ⟨s, h1, rfl⟩, rfl⟩, h2⟩

/-- Every event of a run of the toy provider has the answer of the toy adapter. -/
theorem toy_answers (orc : List Ev → (o : Op) → ORes o.Ans) (req : Request) :
    ∀ ev ∈ (toyRun orc req).1, ∃ h', ev.ans = orc h' ev.op := by
  intro ev hev
  rcases run_answers _ _ _ ev hev with h | h
  · cases h
  · exact h

theorem toy_works (code : AuthCode) (rt : RefreshTok) (req : Request) {owner : Owner} {S : List PyStr → Prop}
    (hs : (toyRun (toyAdapter toyClient code rt) req).1.all encodableScopes = true) :
    Works (toyRun (toyAdapter toyClient code rt) req).1 (py! "c1") toyClient owner S := by
  refine ⟨?_, ?_, ?_⟩
  · intro r hr
    obtain ⟨h', h⟩ := toy_answers _ _ _ hr
    cases h
    rfl
  · intro s r _ hr
    obtain ⟨h', h⟩ := toy_answers _ _ _ hr
    have hs := List.all_eq_true.mp hs _ hr
    simp only [encodableScopes, decide_eq_true_eq] at hs
    cases h
    exact ⟨fun x hx => encodable_ascii (hs x hx), _, rfl, encodable_ascii (by decide)⟩
  · intro u s r _ _ hr
    obtain ⟨h', h⟩ := toy_answers _ _ _ hr
    cases h
    exact ⟨_, rfl, encodable_ascii (by decide)⟩

theorem toyPost_identifies (body : Bytes) : Identifies (toyPost body) .basic (py! "c1") toyClient :=
  ⟨.basic _ _ (credentials_iff.mp <| by
      have h : (match getBasicAuthorization (toyPost []).headers with
        | .ok (some x) => decide (x = (py! "c1", py! "s3")) | _ => false) = true := by decide +kernel
      have h' : getBasicAuthorization (toyPost body).headers = getBasicAuthorization (toyPost []).headers := rfl
      rw [h']
      split at h
      · rename_i x hx
        rw [hx, of_decide_eq_true h]
      · cases h) (by decide) (by decide), rfl, Or.inl rfl⟩

/-- A refused request for comparison: nothing is wrong but the verifier. -/
example : isResponse 400 (by! "{\"error\": \"invalid_grant\", \"error_description\": \"PKCE challenge failure.\"}")
    (toyRun toyUsual (toyPost (by! "grant_type=authorization_code&code=abc&redirect_uri=https://c/cb&code_verifier=b"))).2 = true := by
  decide +kernel

example : ∃ r d scopes, (toyRun toyUsual toyCredentials).2 = .ok r ∧
    HandsOut toyFloat toyConfig (toyRun toyUsual toyCredentials).1 r d toyClient (.client toyClient) scopes ∧
    ∀ s, s ∈ scopes ↔ s ∈ [py! "write", py! "read"] := by
  have hscope : Dict.get toyCredentials.data (py! "scope") = some (py! "write read") := by decide +kernel
  have hwords : Words (py! "write read") [py! "write", py! "read"] := words_iff.mpr (by decide)
  obtain ⟨r, d, scopes, h1, h2, -, -, h3⟩ := C76_client_credentials toyEnv toyFloat_laws Hooks.empty toyProvider toyCredentials
    _ _ .basic (py! "c1") toyClient [py! "openid", py! "read", py! "write"] (by decide) (by decide +kernel)
    (toyPost_identifies _) (by decide) (by decide) (toy_works _ _ _ (by decide +kernel)) toyClient_permits
    (Or.inr ⟨_, _, hscope, by decide, hwords, by decide⟩) (toyRun_exec toyUsual toyCredentials)
  exact ⟨r, d, scopes, h1, h2, h3 _ _ hscope (by decide) hwords⟩

example : ∃ r d, (toyRun toyUsual toyExchange).2 = .ok r ∧
    HandsOut toyFloat toyConfig (toyRun toyUsual toyExchange).1 r d toyClient (.user (some toyUser)) [py! "openid", py! "read"] ∧
    HandsOutRefresh (toyRun toyUsual toyExchange).1 d toyClient (some toyUser) [py! "openid", py! "read"] :=
  C76_authorization_code toyEnv toyFloat_laws Hooks.empty benign_empty toyProvider toyExchange _ _ .basic (py! "c1") toyClient
    (py! "abc") (py! "https://c/cb") toyVerifier (toyCode [py! "openid", py! "read"]) toyUser (by decide) (by decide +kernel)
    (toyPost_identifies _) (by decide) (toy_works _ _ _ (by decide +kernel)) ⟨(by intro f hf; cases hf), (by intro f hf; cases hf)⟩
    (by decide +kernel) (by decide +kernel) (by decide +kernel) (by decide)
    (by intro r hr; obtain ⟨h', h⟩ := toy_answers _ _ _ hr; cases h; rfl) rfl rfl (by decide) (Or.inl ⟨rfl, rfl⟩)
    (by intro r hr; obtain ⟨h', h⟩ := toy_answers _ _ _ hr; cases h; exact ⟨_, rfl, by decide⟩)
    (by intro r hr; obtain ⟨h', h⟩ := toy_answers _ _ _ hr; cases h; rfl)
    (by intro r hr; obtain ⟨h', h⟩ := toy_answers _ _ _ hr; cases h; rfl)
    (toyRun_exec toyUsual toyExchange)

example : ∃ r d scopes t, (toyRun toyUsual toyRefreshRequest).2 = .ok r ∧
    HandsOut toyFloat toyConfig (toyRun toyUsual toyRefreshRequest).1 r d toyClient (.user (some toyUser)) scopes ∧
    Dict.get d (py! "refresh_token") = some (.str t) ∧ ∀ s, s ∈ scopes ↔ s ∈ [py! "read"] := by
  have hscope : Dict.get toyRefreshRequest.data (py! "scope") = some (py! "read") := by decide +kernel
  obtain ⟨r, d, scopes, t, h1, h2, -, h3, -, h4⟩ := C76_refresh_token toyEnv toyFloat_laws Hooks.empty toyProvider toyRefreshRequest
    _ _ .basic (py! "c1") toyClient (py! "r1") (toyRefresh [py! "read", py! "write"]) toyUser
    [py! "openid", py! "read", py! "write"] [py! "read"] (by decide) (by decide +kernel)
    (toyPost_identifies _) (by decide) (toy_works _ _ _ (by decide +kernel)) toyClient_permits
    (Or.inr ⟨_, hscope, words_iff.mpr (by decide)⟩) (by decide) (by decide +kernel) (by decide)
    (by intro r hr; obtain ⟨h', h⟩ := toy_answers _ _ _ hr; cases h; rfl) rfl
    (by intro r hr; obtain ⟨h', h⟩ := toy_answers _ _ _ hr; cases h; exact ⟨_, rfl, by decide⟩)
    (by intro r hr; obtain ⟨h', h⟩ := toy_answers _ _ _ hr; cases h; rfl)
    (toyRun_exec toyUsual toyRefreshRequest)
  exact ⟨r, d, scopes, t, h1, h2, h3, h4 (by decide)⟩

end Psion.Props
