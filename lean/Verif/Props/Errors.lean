import Verif.OAuth.ErrorAuthLemmas
import Verif.Props.TokenAnswers
import Verif.Props.Consent
import Verif.Props.Revoke

/-!
# Properties C87 and C88: errors name the reason for which a request is refused
-/

namespace Psion.Props

open Psion Spec

/-! ## Helpers -/

theorem get_dumped (x : OErr) :
    Dict.get ([(py! "error", x.error), (py! "error_description", x.description), (py! "error_uri", x.uri),
      (py! "state", x.state)].filterMap (fun kv => kv.2.map (fun s => (kv.1, Val.str s)))) (py! "error") =
      x.error.map .str := by
  obtain ⟨k, e, d, u, s, h⟩ := x
  cases e <;> cases d <;> cases u <;> cases s <;> rfl

theorem wpp_token_blame {env : OEnv} {table : Hooks} (hb : Benign table) (p : Provider) (req : Request) :
    WpP (fun _ _ => True) (fun _ _ => True)
      (fun h r => r.status = 200 ∨ ∃ x : OErr, TokenBlame env table p req h (.oauth x) ∧
        jsonResponse env.cr.fe 400 (Dict.update x.headers noStoreHeaders) (.dict (ndictVal x.dump)) = .ok r)
      (fun _ _ => True) [] (p.token env table req) := by
  unfold Provider.token tokenEndpoint
  rw [wpp_catch]
  refine wpp_mono (blames_tokenBody hb) (fun _ _ _ => trivial) (fun _ _ h => Or.inl h) ?_
  intro h e he
  cases e with
  | oauth x =>
    dsimp only [caught]
    rw [wpp_lift, post_liftRes]
    exact ⟨fun r hr => Or.inr ⟨x, he, hr⟩, fun _ _ => trivial⟩
  | py x => trivial

/-! ## C87: the token endpoint -/

/-- The member `error` of a response, if it is a JSON object. -/
def errorOf (fe : FloatEnv) (r : Response) : Option PyStr :=
  match jsonLoads fe r.body with
  | .ok (.dict d) =>
    match Dict.get d (py! "error") with
    | some (.str s) => some s
    | _ => none
  | _ => none

/-- Is the outcome an error response of the token endpoint with this code? -/
def isTokenError (code : PyStr) : ORes Response → Bool
  | .ok r => decide (r.status = 400) && decide (errorOf toyEnv.cr.fe r = some code)
  | .error _ => false

theorem errorOf_body {fe : FloatEnv} {r : Response} {d : Dict PyStr Val} {s : PyStr} (hd : JsonBody fe r d)
    (h : Dict.get d (py! "error") = some (.str s)) : errorOf fe r = some s := by
  unfold errorOf
  rw [show jsonLoads fe r.body = .ok (.dict d) from hd]
  dsimp only
  rw [h]

/-- A request with a refresh token that does not exist. -/
def toyUnknownRefresh : Request := toyPost (by! "grant_type=refresh_token&refresh_token=other")

/-- C87 is false: for a refresh token that does not exist the error is `invalid_request`, which the standard reserves for
malformed requests, although the request has everything that is needed. No adapter call fails, no hook is registered. -/
theorem C87_refuted : ¬ ∀ (env : OEnv) (_ : FloatLaws env.cr.fe) (p : Provider) (req : Request) (tr : List Ev) (r : Response),
    (∀ ev ∈ tr, ∃ a, ev.ans = .ok a) → Exec (p.token env Hooks.empty req) tr (.ok r) → r.status = 400 →
      ∃ d f, JsonBody env.cr.fe r d ∧ TokenFault.Holds env p req tr f ∧ Dict.get d (py! "error") = some (.str f.rfc) := by
  intro H
  have hr : isTokenError (py! "invalid_request") (toyRun toyUsual toyUnknownRefresh).2 = true := by decide +kernel
  have ha : (toyRun toyUsual toyUnknownRefresh).1.all (fun ev => match ev.ans with | .ok _ => true | .error _ => false) =
      true := by decide +kernel
  have hx := toyRun_exec toyUsual toyUnknownRefresh
  cases ho : (toyRun toyUsual toyUnknownRefresh).2 with
  | error e => rw [ho] at hr; cases hr
  | ok r =>
    rw [ho] at hx hr
    unfold isTokenError at hr
    rw [Bool.and_eq_true, decide_eq_true_eq, decide_eq_true_eq] at hr
    obtain ⟨d, f, hd, hf, hc⟩ := H toyEnv toyFloat_laws toyProvider toyUnknownRefresh _ r (by
      intro ev hev
      have := List.all_eq_true.mp ha ev hev
      cases h : ev.ans with
      | ok a => exact ⟨a, rfl⟩
      | error e => rw [h] at this; cases this) hx hr.1
    have hcode := hr.2
    rw [errorOf_body hd hc] at hcode
    have hg : Dict.get toyUnknownRefresh.data (py! "grant_type") = some (py! "refresh_token") := by decide +kernel
    have hno : ∀ {c}, ¬ Admitted toyProvider toyUnknownRefresh (toyRun toyUsual toyUnknownRefresh).1 .authorizationCode c := by
      rintro c ⟨⟨-, h⟩, -⟩
      rw [hg] at h
      exact absurd (Option.some.inj h) (by decide)
    cases f with
    | noParameters =>
      have h0 : toyUnknownRefresh.data = [] := hf
      rw [h0] at hg
      cases hg
    | noGrantType =>
      rcases hf with hf | hf <;> rw [hg] at hf <;> cases hf
    | noCode | noRedirectUri | noVerifier =>
      obtain ⟨c, h1, -⟩ := hf
      exact hno h1
    | noRefreshToken =>
      obtain ⟨c, -, hm⟩ := hf
      have hv : Dict.get toyUnknownRefresh.data (py! "refresh_token") = some (py! "other") := by decide +kernel
      rcases hm with hm | hm <;> rw [hv] at hm <;> cases hm
    | transformUnknown =>
      obtain ⟨c, ac, h1, -⟩ := hf
      exact hno h1
    | _ => exact absurd hcode (by decide)

/-- A refresh token of another client is reported as `invalid_client`. -/
theorem C87_refuted_client : isTokenError (py! "invalid_client")
    (toyRun (toyAdapter toyClient (toyCode []) { toyRefresh [] with clientId := py! "c2" }) toyRefreshRequest).2 = true := by
  decide +kernel

/-- C87, what holds: every error response of the token endpoint was raised by the application, or names a reason that applies to
the execution: the value of `error` is the one of the standard for this reason, except for five reasons (`TokenFault.deviates`),
for which the library reports another value. What is missing are these five (`C87_refuted`). -/
theorem C87_partial (env : OEnv) (hl : FloatLaws env.cr.fe) (table : Hooks) (hb : Benign table) (p : Provider) (req : Request)
    (tr : List Ev) (r : Response) (h : Exec (p.token env table req) tr (.ok r)) (hst : r.status ≠ 200) :
    r.status = 400 ∧ ∃ d, JsonBody env.cr.fe r d ∧
      ((∃ x, AppRaises table tr x ∧ Dict.get d (py! "error") = x.error.map .str) ∨
        ∃ f : TokenFault, f.Holds env p req tr ∧ Dict.get d (py! "error") = some (.str (f.deviates.getD f.rfc)) ∧
          Dict.get r.headers (py! "Content-Type") = some (some (py! "application/json"))) := by
  rcases wpp_exec_ok h (wpp_token_blame hb p req) answers_true with h1 | ⟨x, hx, hj⟩
  · exact absurd h1 hst
  have hs := jsonResponse_status hj
  refine ⟨hs.1, _, (C62_error_body _ hl _ _ _ _ hj).2, ?_⟩
  rcases hx x rfl with hx | ⟨hh, f, hf, hc⟩
  · exact Or.inl ⟨x, hx, get_dumped x⟩
  · refine Or.inr ⟨f, hf, ?_, ?_⟩
    · rw [get_dumped, hc]
      rfl
    · rw [hs.2]
      rcases hh with hh | ⟨hh, -⟩ <;> rw [hh] <;> decide +kernel

/-- The five reasons for which the library deviates. -/
example (f : TokenFault) : f.deviates = none ∨ f = .codeUnknown ∨ f = .codeUserUnknown ∨ f = .refreshUnknown ∨
    f = .refreshExpired ∨ f = .refreshOfOther := by cases f <;> decide

/-- Conversely, for the five reasons the library does not report what the standard says. -/
example (f : TokenFault) (c : PyStr) (h : f.deviates = some c) : c ≠ f.rfc := by
  cases f <;> first | (cases h; decide) | cases h

/-- Error responses of the toy provider. -/
example :
    isTokenError (py! "invalid_request") (toyRun toyUsual (toyPost [])).2 = true ∧
    isTokenError (py! "invalid_request") (toyRun toyUsual (toyPost (by! "a=b"))).2 = true ∧
    isTokenError (py! "unsupported_grant_type") (toyRun toyUsual (toyPost (by! "grant_type=password"))).2 = true ∧
    isTokenError (py! "invalid_client") (toyRun toyUsual { toyExchange with headers := [] }).2 = true ∧
    isTokenError (py! "unauthorized_client")
      (toyRun (toyAdapter { toyClient with grantTypes := [] } (toyCode []) (toyRefresh [])) toyExchange).2 = true ∧
    isTokenError (py! "invalid_grant")
      (toyRun (toyAdapter toyClient { toyCode [] with expiration := 100 } (toyRefresh [])) toyExchange).2 = true ∧
    isTokenError (py! "invalid_scope")
      (toyRun toyUsual (toyPost (by! "grant_type=refresh_token&refresh_token=r1&scope=openid"))).2 = true := by decide +kernel

/-- A successful response of the token endpoint is marked as JSON. -/
theorem C44_json_type (env : OEnv) (table : Hooks) (hb : Benign table) (p : Provider) (req : Request) (tr : List Ev)
    (r : Response) (h : Exec (p.token env table req) tr (.ok r)) (hst : r.status = 200) :
    Dict.get r.headers (py! "Content-Type") = some (some (py! "application/json")) := by
  rcases token_response hb h with ⟨token, -, hj⟩ | ⟨x, -, hj⟩
  · rw [(jsonResponse_status hj).2]
    decide +kernel
  · rw [(jsonResponse_status hj).1] at hst
    cases hst

example : (match (toyRun toyUsual toyExchange).2 with
    | .ok r => decide (r.status = 200 ∧ Dict.get r.headers (py! "Content-Type") = some (some (py! "application/json")))
    | .error _ => false) = true := by decide +kernel

/-! ## C88: the other endpoints -/

theorem wpp_authorize_blame {env : OEnv} {table : Hooks} (hb : Benign table) (p : Provider) (req : Request) :
    WpP (fun _ _ => True) (fun _ _ => True)
      (fun h r => AuthorizeOk env table p req h r ∨ ∃ x : OErr, AuthBlame table p req h (.oauth x) ∧ authorizationError p.cfg req.data x = .ok r)
      (fun _ _ => True) [] (p.authorize env table req) := by
  unfold Provider.authorize authorizeEndpoint
  rw [wpp_catch]
  refine wpp_mono (wpp_and (wpp_authorizeBody hb) (ablames_authorizeBody hb)) (fun _ _ _ => trivial)
    (fun _ _ h => Or.inl h.1) ?_
  rintro h e ⟨-, he⟩
  cases e with
  | oauth x =>
    dsimp only [caught]
    rw [wpp_lift, post_iff]
    exact ⟨fun r hr => Or.inr ⟨x, he, hr⟩, fun _ _ => trivial⟩
  | py x => trivial

theorem wpp_consent_blame {table : Hooks} (p : Provider) (req : Request) :
    WpP (fun _ _ => True) (fun _ _ => True)
      (fun h a => (∃ c scopes, a = .data c scopes) ∨ ∃ (x : OErr) (r : Response), a = .redirect r ∧
        AuthBlame table p req h (.oauth x) ∧ authorizationError p.cfg req.data x = .ok r)
      (fun _ _ => True) [] (p.consent req) := by
  unfold Provider.consent consentEndpoint
  rw [wpp_catch]
  refine wpp_mono (ablames_consentBody (table := table) (p := p)) (fun _ _ _ => trivial) (fun _ _ h => Or.inl h) ?_
  intro h e he
  cases e with
  | oauth x =>
    dsimp only [caught]
    rw [wpp_bind, wpp_lift, post_iff]
    exact ⟨fun r hr => Or.inr ⟨x, r, rfl, he, hr⟩, fun _ _ => trivial⟩
  | py x => trivial

theorem target_of {table : Hooks} {p : Provider} {req : Request} {tr : List Ev} {x : OErr} {r : Response}
    (hx : AuthBlame table p req tr (.oauth x)) (hr : authorizationError p.cfg req.data x = .ok r) :
    ∃ url params, RedirectsTo r url params ∧
      ((∃ y, AppRaises table tr y ∧ (Dict.get params (py! "error")).join = y.error) ∨
        ∃ f : AuthFault, f.Holds p req tr ∧ f.Target p req url ∧ Dict.get params (py! "error") = some (some f.rfc)) := by
  obtain ⟨url, h1, h2⟩ := authorizationError_ok hr
  refine ⟨url, _, h1, ?_⟩
  rcases hx x rfl with hx | ⟨f, hf, hc, hk, -⟩
  · exact Or.inl ⟨x, hx, rfl⟩
  · refine Or.inr ⟨f, hf, ?_, ?_⟩
    · unfold AuthFault.Target
      rcases h2 with ⟨h2, h3⟩ | ⟨h2, h3⟩
      · rw [if_pos (hk.mp h2)]
        exact h3
      · rw [if_neg (fun h => h2 (hk.mpr h))]
        exact h3
    · change some x.error = _
      rw [hc]

/-- C88, authorization endpoint: every redirect carries a code that was stored, was raised by the application, or names a
reason that applies to the execution with the value of `error` that the standards assign to it. The reasons that concern the
client, the redirect URI or the presence of the required parameters are shown on the error page of the provider, all others are
sent to the redirect URI of the request. -/
theorem C88_authorize (env : OEnv) (table : Hooks) (hb : Benign table) (p : Provider) (req : Request) (tr : List Ev)
    (r : Response) (h : Exec (p.authorize env table req) tr (.ok r)) :
    ∃ url params, RedirectsTo r url params ∧
      ((∃ code data c u, Dict.get params (py! "code") = some (some code) ∧
          (⟨.saveCode code data c u, .ok ()⟩ : Ev) ∈ tr) ∨
        (∃ x, AppRaises table tr x ∧ (Dict.get params (py! "error")).join = x.error) ∨
        ∃ f : AuthFault, f.Holds p req tr ∧ f.Target p req url ∧ Dict.get params (py! "error") = some (some f.rfc)) := by
  rcases wpp_exec_ok h (wpp_authorize_blame hb p req) answers_true with ⟨uri, code, response, url, hd, hu, hr⟩ | ⟨x, hx, hr⟩
  · have h1 := authorizeDone_response hb hd
    refine ⟨uri, _, redirect_spec (ok_strParams env h1.1) (urlencodeVals_ok hu) hr, Or.inl ?_⟩
    obtain ⟨c, u, valid, -, hs, -⟩ := hd.done
    refine ⟨code, valid, c, u, ?_, hs⟩
    rw [get_strParams, get_fullDict_some h1.2.1 (by simp)]
    rfl
  · obtain ⟨url, params, h1, h2⟩ := target_of hx hr
    exact ⟨url, params, h1, Or.inr h2⟩

/-- C88, consent data: the same for the redirects of `get_consent_data`. -/
theorem C88_consent (p : Provider) (req : Request) (tr : List Ev) (r : Response)
    (h : Exec (p.consent req) tr (.ok (.redirect r))) :
    ∃ url params, RedirectsTo r url params ∧
      ((∃ x, AppRaises Hooks.empty tr x ∧ (Dict.get params (py! "error")).join = x.error) ∨
        ∃ f : AuthFault, f.Holds p req tr ∧ f.Target p req url ∧ Dict.get params (py! "error") = some (some f.rfc)) := by
  rcases wpp_exec_ok h (wpp_consent_blame (table := Hooks.empty) p req) answers_true with ⟨c, s, h1⟩ | ⟨x, r', heq, hx, hr⟩
  · cases h1
  · cases heq
    exact target_of hx hr

/-- Error redirects of the toy provider: to the error page, and to the redirect URI of the client. -/
example :
    isRedirect (py! "https://s/error?error=invalid_request&error_description=Missing+request+parameters.")
      (toyAuth toyUsual (toyGet [] (some toyUser))).2 = true ∧
    isRedirect (py! "https://s/error?error=invalid_request&error_description=Invalid+client.")
      (toyAuth toyUsual (toyGet (Dict.set toyAuthQuery (py! "client_id") (py! "c9")) (some toyUser))).2 = true ∧
    isRedirect (py! "https://c/cb?error=access_denied") (toyAuth toyUsual (toyGet toyAuthQuery none)).2 = true ∧
    isRedirect (py! "https://c/cb?error=invalid_request&error_description=Invalid+code+challenge.&state=x+%26y")
      (toyAuth toyUsual (toyGet (Dict.set toyAuthQuery (py! "code_challenge") []) (some toyUser))).2 = true ∧
    isRedirect (py! "https://c/cb?error=invalid_scope&error_description=Unsupported+scope+%22admin%22.&state=x+%26y")
      (toyAuth toyUsual (toyGet (Dict.set toyAuthQuery (py! "scope") (py! "admin")) (some toyUser))).2 = true := by
  decide +kernel

theorem wpp_revoke_blame (env : OEnv) (p : Provider) (req : Request) :
    WpP (fun _ _ => True) (fun _ _ => True)
      (fun h a => ∀ r, a = some r → (r.status = 200 ∧ r.headers = parseHeaders (some (py! "application/json")) []) ∨ ∃ x : OErr,
        ((∃ o, (⟨o, .error (.oauth x)⟩ : Ev) ∈ h) ∨
          (x.kind = .invalidClient ∧ x.error = some (py! "invalid_client") ∧ LibHeaders req h x.headers ∧ Rejected req none h) ∨
          (x.kind = .unsupportedTokenType ∧ x.error = some (py! "unsupported_token_type") ∧ x.headers = [] ∧
            ∃ c hint, Authenticated req none h c ∧ Dict.get req.form (py! "token_type_hint") = some hint ∧
              hint ≠ [] ∧ hint ≠ py! "access_token" ∧ hint ≠ py! "refresh_token")) ∧
        jsonResponse env.cr.fe (if x.kind = .invalidClient then 401 else 400) x.headers (.dict (ndictVal x.dump)) = .ok r)
      (fun _ _ => True) [] (p.revoke env req) := by
  unfold Provider.revoke revokeEndpoint
  rw [wpp_catch]
  refine wpp_mono (wpp_revokeBody_blame env req) (fun _ _ _ => trivial) (fun _ _ h r hr => Or.inl (h r hr)) ?_
  intro h e he
  cases e with
  | oauth x =>
    dsimp only [caught]
    rw [wpp_bind, wpp_lift, post_liftRes]
    refine ⟨?_, fun _ _ => trivial⟩
    rintro r hr _ ⟨⟩
    exact Or.inr ⟨x, he x rfl, hr⟩
  | py x => trivial

/-- C88, revocation endpoint: every error response was raised by the adapter, or is a 401 response with `invalid_client` to a
request whose client is not authenticated, or a 400 response with `unsupported_token_type` to a request of an authenticated
client with a hint that names no kind of token. -/
theorem C88_revoke (env : OEnv) (hl : FloatLaws env.cr.fe) (p : Provider) (req : Request) (tr : List Ev) (r : Response)
    (h : Exec (p.revoke env req) tr (.ok (some r))) (hst : r.status ≠ 200) :
    ∃ d, JsonBody env.cr.fe r d ∧
      ((∃ o x, (⟨o, .error (.oauth x)⟩ : Ev) ∈ tr ∧ Dict.get d (py! "error") = x.error.map .str) ∨
        (Dict.get r.headers (py! "Content-Type") = some (some (py! "application/json")) ∧
          ((r.status = 401 ∧ Dict.get d (py! "error") = some (.str (py! "invalid_client")) ∧ Rejected req none tr) ∨
          (r.status = 400 ∧ Dict.get d (py! "error") = some (.str (py! "unsupported_token_type")) ∧
            ∃ c hint, Authenticated req none tr c ∧ Dict.get req.form (py! "token_type_hint") = some hint ∧
              hint ≠ [] ∧ hint ≠ py! "access_token" ∧ hint ≠ py! "refresh_token")))) := by
  rcases wpp_exec_ok h (wpp_revoke_blame env p req) answers_true r rfl with h1 | ⟨x, hx, hj⟩
  · exact absurd h1.1 hst
  have hs := jsonResponse_status hj
  refine ⟨_, (C62_error_body _ hl _ _ _ _ hj).2, ?_⟩
  rw [get_dumped]
  rcases hx with ⟨o, hx⟩ | ⟨hk, hc, hh, hrej⟩ | ⟨hk, hc, hh, hrest⟩
  · exact Or.inl ⟨o, x, hx, rfl⟩
  · refine Or.inr ⟨?_, Or.inl ⟨by rw [hs.1, if_pos hk], by rw [hc]; rfl, hrej⟩⟩
    rw [hs.2]
    rcases hh with hh | ⟨hh, -⟩ <;> rw [hh] <;> decide +kernel
  · refine Or.inr ⟨?_, Or.inr ⟨by rw [hs.1, if_neg (by rw [hk]; decide)], by rw [hc]; rfl, hrest⟩⟩
    rw [hs.2, hh]
    decide +kernel

/-- The two errors of the revocation endpoint, in the toy provider. -/
example :
    isAnswer 401 (by! "{\"error\": \"invalid_client\"}") (toyRevoke toyUsual { toyRevocation with headers := [] }).2 = true ∧
    isAnswer 400 (by! "{\"error\": \"unsupported_token_type\"}")
      (toyRevoke toyUsual (toyPost (by! "token=r1&token_type_hint=pin"))).2 = true := by decide +kernel

end Psion.Props
