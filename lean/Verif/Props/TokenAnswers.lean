import Verif.OAuth.AnswerLemmas
import Verif.Props.Token

/-!
# Property C44: the token endpoint always answers
-/

namespace Psion.Props

open Psion Spec

/-! ## What is false -/

/-- The outcome is an exception that is not turned into a response. -/
def escapes (e : Exc) : ORes Response → Bool
  | .error (.py x) => decide (x = e)
  | _ => false

/-- C44 is false: a request for the authorization code grant without code by an authenticated client ends with a `KeyError`
(the `finally` clause evaluates `data["code"]`), although no adapter call fails and no hook is registered. -/
theorem C44_refuted : ¬ ∀ (env : OEnv) (_ : FloatLaws env.cr.fe) (p : Provider) (req : Request) (tr : List Ev)
    (out : ORes Response), (∀ ev ∈ tr, ∃ a, ev.ans = .ok a) → Exec (p.token env Hooks.empty req) tr out →
      ∃ r, out = .ok r := by
  intro H
  let req := toyPost (by! "grant_type=authorization_code")
  have hr : escapes .keyErr (toyRun toyUsual req).2 = true := by decide +kernel
  have ha : (toyRun toyUsual req).1.all (fun ev => match ev.ans with | .ok _ => true | .error _ => false) = true := by
    decide +kernel
  obtain ⟨r, hr'⟩ := H toyEnv toyFloat_laws toyProvider req _ _ (by
    intro ev hev
    have := List.all_eq_true.mp ha ev hev
    cases h : ev.ans with
    | ok a => exact ⟨a, rfl⟩
    | error e => rw [h] at this; cases this) (toyRun_exec toyUsual req)
  rw [hr'] at hr
  cases hr

/-- C44, second counterexample: a verifier with a character outside of ASCII ends with a `UnicodeEncodeError`. -/
theorem C44_refuted_verifier : escapes .unicodeEncode
    (toyRun (toyAdapter toyClient toyCodeS256 (toyRefresh []))
      (toyPost (by! "grant_type=authorization_code&code=abc&redirect_uri=https://c/cb&code_verifier=%C3%A9"))).2 = true := by
  decide +kernel

/-- C44, third counterexample: a Basic header without credentials ends with a `ValueError`. -/
theorem C44_refuted_header : escapes .valueErr
    (toyRun toyUsual { toyPost (by! "grant_type=client_credentials") with
      headers := [(py! "authorization", py! "Basic ")] }).2 = true := by
  decide +kernel

/-! ## What holds -/

/-- An exception of the application that the endpoint can report: an `OAuth2Error` whose texts can be encoded and whose headers
form a dictionary. -/
structure Calm (e : OExc) : Prop where
  is : ∃ x, e = .oauth x ∧ Dict.Ok x.headers ∧
    ∀ t, x.error = some t ∨ x.description = some t ∨ x.uri = some t ∨ x.state = some t → Encodable t

/-- A token response in the making: its members are those of a token issued for the code `ac` to the client about the user. -/
def TokenLike (cfg : Config) (tr : List Ev) (client : Client) (user : User) (token : Dict PyStr Val) : Prop :=
  ∃ code ac access refresh, FoundCode tr code ac ∧
    (⟨.createAccess client (.user (some user)) ac.scopes, .ok access⟩ : Ev) ∈ tr ∧
    Dict.get token (py! "access_token") = some (.str access) ∧
    Dict.get token (py! "token_type") = some (.str (py! "Bearer")) ∧
    Dict.get token (py! "expires_in") = some (.int cfg.tokenLifespan) ∧
    Dict.get token (py! "refresh_token") = (refresh : Option PyStr).map .str ∧
    Dict.get token (py! "scope") = if ac.scopes = [] then none else some (.str (joinWith [32] ac.scopes))

/-- The application does its part: adapter, clients and hooks raise at most errors that can be reported, and the texts they
contribute to the response can be encoded. Everything is relative to what happened in the execution. -/
structure Cooperates (cfg : Config) (table : Hooks) (tr : List Ev) : Prop where
  adapter : ∀ o e, (⟨o, .error e⟩ : Ev) ∈ tr → Calm e
  access : ∀ c o s t, (⟨.createAccess c o s, .ok t⟩ : Ev) ∈ tr → Encodable t ∧ ∀ x ∈ s, Encodable x
  refresh : ∀ c u s t, (⟨.createRefresh c u s, .ok t⟩ : Ev) ∈ tr → Encodable t
  clients : ∀ id c v e, FoundClient tr id c → ScopeArg v → c.allowedScopes v = .error e → Calm e
  requestHooks : ∀ f ∈ table.tokenRequest, ∀ data tr' e, tr' ⊆ tr → Exec (f data) tr' (.error e) → Calm e
  responseHooks : ∀ f ∈ table.tokenResponse, ∀ token data id client user tr', FoundClient tr id client →
    TokenLike cfg tr client user token → tr' <:+: tr →
    (∀ e, Exec (f token data client user) tr' (.error e) → Calm e) ∧
    (∀ d, Exec (f token data client user) tr' (.ok (some d)) → Val.EncD d)

/-- The shape of an answer of the token endpoint. -/
def TokenAnswer (r : Response) : Prop :=
  (r.status = 200 ∨ r.status = 400) ∧
    Dict.get r.headers (py! "Cache-Control") = some (some (py! "no-store")) ∧
    Dict.get r.headers (py! "Pragma") = some (some (py! "no-cache"))

theorem tokenLike_of {cfg : Config} {tr : List Ev} {code : Val} {ac : AuthCode} {access : PyStr} {refresh : Option PyStr}
    {token : Dict PyStr Val} {client : Client} {user : User} (hc : FoundCode tr code ac)
    (ha : (⟨.createAccess client (.user (some user)) ac.scopes, .ok access⟩ : Ev) ∈ tr)
    (h : ∀ k ∈ responseKeys, Dict.get token k = Dict.get (createToken cfg access refresh (some ac.scopes)) k) :
    TokenLike cfg tr client user token := by
  obtain ⟨g1, g2, g3, g4, g5⟩ := createToken_get cfg access refresh (some ac.scopes)
  refine ⟨code, ac, access, refresh, hc, ha, ?_, ?_, ?_, ?_, ?_⟩
  · rw [h _ (by decide), g1]
  · rw [h _ (by decide), g2]
  · rw [h _ (by decide), g3]
  · rw [h _ (by decide), g4]
  · rw [h _ (by decide), g5]
    cases ac.scopes <;> rfl

/-- The token of a successful run can be encoded. -/
theorem encD_token {env : OEnv} {table : Hooks} (hb : Benign table) {p : Provider} {req : Request} {tr : List Ev}
    {token : Dict PyStr Val} (hco : Cooperates p.cfg table tr) (h : TokenDone env table p req tr token) :
    Val.EncD token := by
  obtain ⟨g, c, hu, hd⟩ := h
  cases g with
  | authorizationCode =>
    obtain ⟨code, ac, user, access, refresh, valid, tr', h1, h2, h3, h4, h5, h6, h7, h8, h9⟩ := hd.1.done
    obtain ⟨_, id, hfc, -⟩ := hu.auth
    have hr : ∀ t, refresh = some t → Encodable t := by
      intro t ht
      by_cases hm : py! "refresh_token" ∈ c.grantTypes
      · obtain ⟨t', ht', hev⟩ := h6 hm
        rw [ht] at ht'
        cases ht'
        exact hco.refresh _ _ _ _ hev
      · rw [h7 hm] at ht; cases ht
    refine runHooks_inv (reserved := responseKeys) (I := Val.EncD) (h := tr)
      (acc0 := createToken p.cfg access refresh (some ac.scopes)) (benign_tokenResponse hb valid c user) ?_
      (fun _ _ => rfl) ?_ h9 h8
    · intro f hf acc tr2 d hk hs hx hi
      obtain ⟨g, hg, rfl⟩ := List.mem_map.mp hf
      exact encD_update hi ((hco.responseHooks g hg acc valid id c user tr2 hfc (tokenLike_of h2 h5 hk) hs).2 d hx)
    · exact encD_createToken (hco.access _ _ _ _ h5).1 hr (by rintro l ⟨⟩; exact (hco.access _ _ _ _ h5).2)
  | clientCredentials =>
    obtain ⟨scopes, access, h1, h2, rep, rfl, h3⟩ := hd.done
    refine encD_createToken (hco.access _ _ _ _ h2).1 (by simp) ?_
    intro l hl
    rcases h3 with h3 | ⟨h3, -⟩
    · rw [hl] at h3; cases h3; exact (hco.access _ _ _ _ h2).2
    · rw [hl] at h3; cases h3
  | refreshToken =>
    obtain ⟨text, rt, user, scopes, access, refresh, h1, h2, h3, h4, h5, h6, h7, rfl⟩ := hd.done
    refine encD_createToken (hco.access _ _ _ _ h5).1 ?_ ?_
    · intro t ht
      by_cases hm : py! "refresh_token" ∈ c.grantTypes
      · obtain ⟨t', ht', hev⟩ := h6 hm
        rw [ht] at ht'
        cases ht'
        exact hco.refresh _ _ _ _ hev
      · rw [h7 hm] at ht; cases ht
    · intro l hl
      split at hl
      · cases hl
      · cases hl; exact (hco.access _ _ _ _ h5).2

/-- An error of the library can be reported. -/
theorem calm_libErr {data : Dict PyStr PyStr} (hd : ∀ k v, Dict.get data k = some v → Encodable v) {x : OErr}
    (h : LibErr data x) : Calm (.oauth x) := by
  refine ⟨x, rfl, ?_, ?_⟩
  · rcases h.headers with h | h <;> rw [h] <;> simp [Dict.Ok, Dict.keys]
  · intro t ht
    rcases ht with ht | ht | ht | ht
    · rw [h.error] at ht
      cases ht
      cases x.kind <;> exact encodable_ascii (by decide)
    · intro ch hch
      rcases h.text t ht ch hch with hc | ⟨k, v, hk, hv⟩
      · exact encodable_ascii (s := [ch]) (by simpa using hc) ch (by simp)
      · exact hd k v hk ch hv
    · rw [h.uri] at ht; cases ht
    · rw [h.state] at ht; cases ht

/-- What can be raised at the endpoint if the application and the request are in order. -/
theorem calm_raise {cfg : Config} {table : Hooks} {req : Request} {tr : List Ev} {e : OExc}
    (hco : Cooperates cfg table tr) (hbasic : ¬ MalformedBasic req.headers)
    (hcode : Dict.get req.data (py! "grant_type") = some (py! "authorization_code") →
      Dict.get req.data (py! "code") ≠ none)
    (hver : ∀ v, Dict.get req.data (py! "code_verifier") = some v → ∀ c ∈ v, c < 128)
    (h : TokenRaise cfg table req tr e) : Calm e := by
  rcases h with ⟨o, h⟩ | ⟨acc, f, hf, acc', tr', -, hs, hx⟩ |
    ⟨code, ac, valid, id, c, user, access, refresh, -, hc, hfc, hca, f, hf, acc', tr', hk, hs, hx⟩ | ⟨v, hv, hn, -⟩ |
    ⟨id, c, v, hc, hsa, hv⟩ | ⟨hg, hc, -⟩ | ⟨x, -, hx⟩
  · exact hco.adapter o e h
  · obtain ⟨g, hg, rfl⟩ := List.mem_map.mp hf
    exact hco.requestHooks g hg _ _ _ hs.subset hx
  · obtain ⟨g, hg, rfl⟩ := List.mem_map.mp hf
    exact (hco.responseHooks g hg acc' valid id c user tr' hfc (tokenLike_of hc hca hk) hs).1 e hx
  · exact absurd (hver v hv) hn
  · exact hco.clients id c v e hc hsa hv
  · exact absurd hc (hcode hg)
  · exact absurd (malformedBasic_iff.mp ⟨x, hx⟩) hbasic

/-- Every response of the token endpoint has the status 200 or 400, whatever the application does. -/
theorem C44_status (env : OEnv) (table : Hooks) (hb : Benign table) (p : Provider) (req : Request) (tr : List Ev)
    (r : Response) (h : Exec (p.token env table req) tr (.ok r)) : r.status = 200 ∨ r.status = 400 := by
  rcases token_response hb h with ⟨token, -, hj⟩ | ⟨x, -, hj⟩
  · exact Or.inl (jsonResponse_status hj).1
  · exact Or.inr (jsonResponse_status hj).1

/-- C44 under conditions on the request: the Authorization header is not malformed, a request for the authorization code grant
has a code, the verifier is ASCII text, and the URL contains no lone surrogates. Then the endpoint answers, unless the
application raises something that cannot be reported. What is missing are exactly the requests that violate the first three
conditions (`C44_refuted`, `C44_refuted_verifier`, `C44_refuted_header`). -/
theorem C44_partial (env : OEnv) (hl : FloatLaws env.cr.fe) (table : Hooks) (hb : Benign table) (p : Provider)
    (req : Request) (tr : List Ev) (out : ORes Response) (hco : Cooperates p.cfg table tr)
    (hquery : ∀ k v, Dict.get req.query k = some v → Encodable v)
    (hbasic : ¬ MalformedBasic req.headers)
    (hcode : Dict.get req.data (py! "grant_type") = some (py! "authorization_code") →
      Dict.get req.data (py! "code") ≠ none)
    (hver : ∀ v, Dict.get req.data (py! "code_verifier") = some v → ∀ c ∈ v, c < 128)
    (h : Exec (p.token env table req) tr out) : ∃ r, out = .ok r ∧ TokenAnswer r := by
  have hcalm : ∀ x : OErr, LibErr req.data x ∨ TokenRaise p.cfg table req tr (.oauth x) → Calm (.oauth x) := by
    intro x hx
    rcases hx with hx | hx
    · exact calm_libErr (fun k v hk => encodable_data hquery hk) hx
    · exact calm_raise hco hbasic hcode hver hx
  have hns : Dict.Ok noStoreHeaders := by simp [Dict.Ok, Dict.keys, noStoreHeaders]
  cases out with
  | ok r =>
    refine ⟨r, rfl, C44_status env table hb p req tr r h, ?_⟩
    rcases token_response hb h with ⟨token, -, hj⟩ | ⟨x, hx, hj⟩
    · rw [(jsonResponse_status hj).2]
      exact ⟨get_parseHeaders hns (by decide), get_parseHeaders hns (by decide)⟩
    · rw [(jsonResponse_status hj).2]
      obtain ⟨_, ⟨⟩, hok, -⟩ := (hcalm x hx).is
      constructor <;> refine get_parseHeaders (Dict.ok_update hok _) ?_ <;>
        rw [Dict.get_update_ok hns] <;> rfl
  | error e =>
    exfalso
    obtain ⟨x, rfl, hx⟩ := wpp_exec_error h (wpp_token hb p req) answers_true
    rcases hx with hx | ⟨token, hd, hj⟩ | ⟨y, hy, hj⟩
    · obtain ⟨y, hy, -⟩ := (calm_raise hco hbasic hcode hver hx).is
      cases hy
    · obtain ⟨r, hr⟩ := jsonResponse_ok hl (encD_token hb hco hd) 200 noStoreHeaders
      rw [hj] at hr; cases hr
    · obtain ⟨_, ⟨⟩, hok, henc⟩ := (hcalm y hy).is
      obtain ⟨r, hr⟩ := jsonResponse_ok hl (encD_dump henc) 400 (Dict.update y.headers noStoreHeaders)
      rw [hj] at hr; cases hr

/-! ### The hypotheses are satisfiable -/

/-- Tests of a trace for the conditions on created tokens. -/
def encodableScopes : Ev → Bool
  | ⟨.createAccess _ _ s, _⟩ => decide (∀ x ∈ s, ∀ c ∈ x, c < 128)
  | _ => true

/-- The toy adapter does its part in a run without key information. -/
theorem toy_cooperates (code : AuthCode) (rt : RefreshTok) (req : Request)
    (hs : (toyRun (toyAdapter toyClient code rt) req).1.all encodableScopes = true)
    (hk : (toyRun (toyAdapter toyClient code rt) req).1.all
      (fun ev => match ev with | ⟨.getKeyInfo, _⟩ => false | _ => true) = true) :
    Cooperates toyProvider.cfg Hooks.empty (toyRun (toyAdapter toyClient code rt) req).1 := by
  have ha : ∀ ev ∈ (toyRun (toyAdapter toyClient code rt) req).1, ∃ h', ev.ans = toyAdapter toyClient code rt h' ev.op := by
    intro ev hev
    rcases run_answers _ _ _ ev hev with h | h
    · cases h
    · exact h
  refine ⟨?_, ?_, ?_, ?_, ?_, ?_⟩
  · intro o e hev
    obtain ⟨h', h⟩ := ha _ hev
    have := List.all_eq_true.mp hk _ hev
    cases o <;> first | (cases h; done) | (cases this; done)
  · intro c o s t hev
    obtain ⟨h', h⟩ := ha _ hev
    have hs := List.all_eq_true.mp hs _ hev
    simp only [encodableScopes, decide_eq_true_eq] at hs
    cases h
    exact ⟨encodable_ascii (by decide), fun x hx => encodable_ascii (hs x hx)⟩
  · intro c u s t hev
    obtain ⟨h', h⟩ := ha _ hev
    cases h
    exact encodable_ascii (by decide)
  · intro id c v e hev _ hv
    obtain ⟨h', h⟩ := ha _ hev
    unfold toyAdapter at h
    dsimp only at h
    split at h
    · cases h
      unfold toyClient at hv
      dsimp only at hv
      split at hv <;> cases hv
    · cases h
  · intro f hf; cases hf
  · intro f hf; cases hf

example : ∃ r, (toyRun toyUsual toyExchange).2 = .ok r ∧ TokenAnswer r :=
  C44_partial toyEnv toyFloat_laws Hooks.empty benign_empty toyProvider toyExchange _ _
    (toy_cooperates _ _ _ (by decide +kernel) (by decide +kernel)) (by intro k v h; cases h)
    (by
      have h : (match getBasicAuthorization toyExchange.headers with | .ok _ => true | .error _ => false) = true := by
        decide +kernel
      intro hm
      obtain ⟨x, hx⟩ := malformedBasic_iff.mpr hm
      rw [hx] at h; cases h)
    (by decide +kernel)
    (by
      have h : Dict.get toyExchange.data (py! "code_verifier") = some toyVerifier := by decide +kernel
      intro v hv
      rw [h] at hv
      cases hv
      decide)
    (toyRun_exec toyUsual toyExchange)

/-! ## C62 (token endpoint) -/

/-- C62 at the token endpoint: the body of every response with status 400 is read back as exactly the members of an error that
are set. -/
theorem C62_token_endpoint (env : OEnv) (hl : FloatLaws env.cr.fe) (table : Hooks) (hb : Benign table) (p : Provider)
    (req : Request) (tr : List Ev) (r : Response) (h : Exec (p.token env table req) tr (.ok r)) (hs : r.status = 400) :
    ∃ x : OErr, JsonBody env.cr.fe r
      ([(py! "error", x.error), (py! "error_description", x.description), (py! "error_uri", x.uri),
        (py! "state", x.state)].filterMap (fun kv => kv.2.map (fun s => (kv.1, Val.str s)))) ∧
      (LibErr req.data x ∨ TokenRaise p.cfg table req tr (.oauth x)) := by
  rcases token_response hb h with ⟨token, -, hj⟩ | ⟨x, hx, hj⟩
  · rw [(jsonResponse_status hj).1] at hs
    cases hs
  · exact ⟨x, (C62_error_body env.cr.fe hl 400 _ x r hj).2, hx⟩

example : isResponse 400 (by! "{\"error\": \"unsupported_grant_type\", \"error_description\": \"Unsupported grant_type \\\"a\\\"\\\".\"}")
    (toyRun toyUsual (toyPost (by! "grant_type=a%22"))).2 = true := by decide +kernel

end Psion.Props
