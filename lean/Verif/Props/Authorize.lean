import Verif.OAuth.RedirectLemmas
import Verif.Props.TokenAnswers

/-!
# Properties C39, C45-C49: the authorization endpoint
-/

namespace Psion.Props

open Psion Spec

/-! ## A concrete authorization request -/

/-- The parameters of a valid authorization request. -/
def toyAuthQuery : Dict PyStr PyStr :=
  [(py! "response_type", py! "code"), (py! "client_id", py! "c1"), (py! "redirect_uri", py! "https://c/cb"),
    (py! "scope", py! "openid read"), (py! "state", py! "x &y"), (py! "code_challenge", toyVerifier),
    (py! "code_challenge_method", py! "plain")]

/-- A GET request of the user `u1`. -/
def toyGet (query : Dict PyStr PyStr) (user : Option User) : Request where
  method := py! "GET"
  query := query
  headers := []
  body := none
  user := user

/-- A run of the authorization endpoint of the toy provider. -/
def toyAuth (orc : List Ev → (o : Op) → ORes o.Ans) (req : Request) : List Ev × ORes Response :=
  Prog.run orc [] (toyProvider.authorize toyEnv Hooks.empty req)

theorem toyAuth_exec (orc : List Ev → (o : Op) → ORes o.Ans) (req : Request) :
    Exec (toyProvider.authorize toyEnv Hooks.empty req) (toyAuth orc req).1 (toyAuth orc req).2 := exec_run _ _

/-- A valid authorization request. -/
def toyAuthRequest : Request := toyGet toyAuthQuery (some toyUser)

/-- Is the outcome a redirect to this location? -/
def isRedirect (loc : PyStr) : ORes Response → Bool
  | .ok r => decide (r.status = 303 ∧ location r = some loc)
  | .error _ => false

theorem isRedirect_iff {loc : PyStr} {out : ORes Response} (h : isRedirect loc out = true) :
    ∃ r, out = .ok r ∧ r.status = 303 ∧ location r = some loc := by
  cases out with
  | ok r =>
    simp only [isRedirect, decide_eq_true_eq] at h
    exact ⟨r, rfl, h.1, h.2⟩
  | error e => cases h

/-- The code that the toy oracle draws. -/
def toyDrawn : PyStr := List.replicate 64 97

example : isRedirect (py! "https://c/cb?code=" ++ toyDrawn ++ py! "&state=x+%26y") (toyAuth toyUsual toyAuthRequest).2 = true := by
  decide +kernel

/-! ## C39, C49: what is stored -/

/-- C39 (authorization endpoint): every code is stored with the code challenge and method of the request; the challenge has 43
to 128 characters and the method is one of the two supported ones. -/
theorem C39_stored (env : OEnv) (table : Hooks) (hb : Benign table) (p : Provider) (req : Request)
    (pre post : List Ev) (code : PyStr) (data : Dict PyStr Val) (c : Client) (u : User) (ans : ORes Unit)
    (h : Partial (p.authorize env table req) (pre ++ ⟨.saveCode code data c u, ans⟩ :: post)) :
    ∃ challenge method, Dict.get req.data (py! "code_challenge") = some challenge ∧
      Dict.get req.data (py! "code_challenge_method") = some method ∧
      Dict.get data (py! "code_challenge") = some (.str challenge) ∧
      Dict.get data (py! "code_challenge_method") = some (.str method) ∧
      43 ≤ challenge.length ∧ challenge.length ≤ 128 ∧ (method = py! "plain" ∨ method = py! "S256") := by
  have hw := (authorize_op hb h).1
  obtain ⟨ch, h1, h2, h3, h4⟩ := hw.challenge
  obtain ⟨m, h5, h6, h7⟩ := hw.method
  exact ⟨ch, m, h1, h5, h4, h7, h2, h3, h6⟩

/-- C49 (authorization endpoint): the scopes stored with a code are the words of the requested scope, and each of them is
supported by the provider and allowed for the client. -/
theorem C49_stored (env : OEnv) (table : Hooks) (hb : Benign table) (p : Provider) (req : Request)
    (pre post : List Ev) (code : PyStr) (data : Dict PyStr Val) (c : Client) (u : User) (ans : ORes Unit)
    (h : Partial (p.authorize env table req) (pre ++ ⟨.saveCode code data c u, ans⟩ :: post)) :
    ∃ text ws allowed, Dict.get req.data (py! "scope") = some text ∧ Words text ws ∧
      Dict.get data (py! "scopes") = some (strList ws) ∧ c.allowedScopes (strList ws) = .ok allowed ∧
      ∀ s ∈ ws, s ∈ p.cfg.scopes ∧ s ∈ allowed := by
  obtain ⟨text, ws, allowed, h1, h2, h3, h4, h5, h6⟩ := (authorize_op hb h).1.scopes
  exact ⟨text, ws, allowed, h1, h2, h3, h5, fun s hs => ⟨h4 s hs, h6 s hs⟩⟩

/-- C49 (authorization endpoint): a code is stored only for the logged-in user and the client named in the request, which is
registered for the redirect URI and the response type; the code consists of 64 unpredictable characters. -/
theorem C49_stored_for (env : OEnv) (table : Hooks) (hb : Benign table) (p : Provider) (req : Request)
    (pre post : List Ev) (code : PyStr) (data : Dict PyStr Val) (c : Client) (u : User) (ans : ORes Unit)
    (h : Partial (p.authorize env table req) (pre ++ ⟨.saveCode code data c u, ans⟩ :: post)) :
    req.user = some u ∧ (∃ id, Dict.get req.data (py! "client_id") = some id ∧ FoundClient pre id c) ∧
      (∃ uri, Dict.get req.data (py! "redirect_uri") = some uri ∧ uri ∈ c.redirectUris ∧
        Dict.get data (py! "redirect_uri") = some (.str uri)) ∧
      py! "code" ∈ c.responseTypes ∧
      ∃ choices, (⟨.choices64, .ok choices⟩ : Ev) ∈ pre ∧ secretToken choices.val = .ok code := by
  obtain ⟨hw, hd, -⟩ := authorize_op hb h
  exact ⟨hw.user, hw.client, hw.uri, hw.registered, hd⟩

/-- The hypothesis is satisfiable: the toy run stores a code. -/
example : ∃ pre post code data c u ans, Partial (toyProvider.authorize toyEnv Hooks.empty toyAuthRequest)
    (pre ++ ⟨.saveCode code data c u, ans⟩ :: post) := by
  have hx := exec_partial (toyAuth_exec toyUsual toyAuthRequest)
  obtain ⟨pre, post, code, data, c, u, ans, heq⟩ := split_saves (l := (toyAuth toyUsual toyAuthRequest).1) (by decide +kernel)
  rw [heq] at hx
  exact ⟨pre, post, code, data, c, u, ans, hx⟩

/-- The scopes of the code for which the token endpoint is asked, in the counterexample to C49. -/
def toyAdminCode : AuthCode := toyCode [py! "admin"]

/-- C49 is false for the exchange of a code: the scopes stored with the code are handed to the token creation without another
look at what the provider supports or the client is allowed. Here the code carries a scope that neither has (any more). -/
theorem C49_refuted : ¬ ∀ (env : OEnv) (p : Provider) (req : Request) (pre post : List Ev) (c : Client) (owner : Owner)
    (scopes : List PyStr) (ans : ORes PyStr),
    Partial (p.token env Hooks.empty req) (pre ++ ⟨.createAccess c owner scopes, ans⟩ :: post) →
      ∃ allowed, c.allowedScopes .none = .ok allowed ∧ ∀ s ∈ scopes, s ∈ allowed := by
  intro H
  obtain ⟨pre, post, c, owner, ans, heq⟩ := split_creates
    (l := (toyRun (toyAdapter toyClient toyAdminCode (toyRefresh [])) toyExchange).1) (scopes := [py! "admin"])
    (by decide +kernel)
  have hx := exec_partial (toyRun_exec (toyAdapter toyClient toyAdminCode (toyRefresh [])) toyExchange)
  rw [heq] at hx
  obtain ⟨allowed, h1, h2⟩ := H _ _ _ _ _ _ _ _ _ hx
  obtain ⟨g, -, -, -, ⟨m, id, hf, -⟩, -⟩ := access_justified benign_empty hx
  have hev : (⟨.findClient id, .ok (some c)⟩ : Ev) ∈
      (toyRun (toyAdapter toyClient toyAdminCode (toyRefresh [])) toyExchange).1 := by
    rw [heq]; exact List.mem_append_left _ hf
  rcases run_answers _ _ _ _ hev with h | ⟨h', ha⟩
  · cases h
  · unfold toyAdapter at ha
    dsimp only at ha
    split at ha
    · cases ha
      cases h1
      have := h2 _ List.mem_cons_self
      revert this
      decide
    · cases ha

/-! ## C46: where the redirects go -/

/-- The lookups of clients in the execution are answered from the registry. -/
def LooksUp (reg : PyStr → Option Client) (tr : List Ev) : Prop :=
  ∀ id ans, (⟨.findClient id, ans⟩ : Ev) ∈ tr → ans = .ok (reg id)

/-- A registry with the toy client. -/
def toyRegistry (id : PyStr) : Option Client := if id = toyClient.clientId then some toyClient else none

theorem toy_looksUp (code : AuthCode) (rt : RefreshTok) (req : Request) :
    LooksUp toyRegistry (toyAuth (toyAdapter toyClient code rt) req).1 := by
  intro id ans hev
  rcases run_answers _ _ _ _ hev with h | ⟨h', ha⟩
  · cases h
  · exact ha

/-- A request with a redirect URI that is not registered. -/
def toyEvil (query : Dict PyStr PyStr) : Dict PyStr PyStr := Dict.set query (py! "redirect_uri") (py! "https://evil/")

/-- The open redirect: if nobody is logged in, or if the response type is unknown, the error is sent to the redirect URI of the
request before the client is looked up. -/
theorem C46_open_redirects :
    isRedirect (py! "https://evil/?error=access_denied") (toyAuth toyUsual (toyGet (toyEvil toyAuthQuery) none)).2 = true ∧
    isRedirect (py! "https://evil/?error=unsupported_response_type&error_description=Unsupported+response_type+%22token%22.&state=x+%26y")
      (toyAuth toyUsual (toyGet (toyEvil (Dict.set toyAuthQuery (py! "response_type") (py! "token"))) (some toyUser))).2 = true := by
  constructor <;> decide +kernel

/-- C46 is false: there is a redirect to a URI that is registered for no client. -/
theorem C46_refuted : ¬ ∀ (env : OEnv) (p : Provider) (reg : PyStr → Option Client) (req : Request) (tr : List Ev)
    (r : Response), LooksUp reg tr → Exec (p.authorize env Hooks.empty req) tr (.ok r) →
      ∃ url params, RedirectsTo r url params ∧ (url = p.cfg.errorUrl ∨
        ∃ id c, Dict.get req.data (py! "client_id") = some id ∧ reg id = some c ∧ url ∈ c.redirectUris) := by
  intro H
  obtain ⟨r, hr, hs, hl⟩ := isRedirect_iff C46_open_redirects.1
  have hx := toyAuth_exec toyUsual (toyGet (toyEvil toyAuthQuery) none)
  rw [hr] at hx
  obtain ⟨url, params, ⟨-, base, q, h1, h2, -⟩, h3⟩ := H _ _ toyRegistry _ _ _ (toy_looksUp _ _ _) hx
  rw [hl] at h2
  have h2 := Option.some.inj h2
  rcases h3 with rfl | ⟨id, c, -, hc, hu⟩
  · rw [show quotePlus locSafe toyProvider.cfg.errorUrl = .ok (py! "https://s/error") by decide +kernel] at h1
    cases h1
    simp at h2
  · unfold toyRegistry at hc
    split at hc
    · cases hc
      have : url = py! "https://c/cb" := by simpa [toyClient] using hu
      subst this
      rw [show quotePlus locSafe (py! "https://c/cb") = .ok (py! "https://c/cb") by decide +kernel] at h1
      cases h1
      simp at h2
    · cases hc

/-- The error redirects to a URI that was not checked. -/
inductive Unchecked (p : Provider) (req : Request) (tr : List Ev) (params : NDict PyStr PyStr) : Prop
  /-- Nobody is logged in. -/
  | denied : req.user = none → params = (OErr.mk' .accessDenied).params → Unchecked p req tr params
  /-- The requested response type is not that of a grant of the provider. -/
  | responseType (rt : PyStr) : Dict.get req.data (py! "response_type") = some rt →
      (rt = py! "code" → .authorizationCode ∉ p.grants) →
      Dict.get params (py! "error") = some (some (py! "unsupported_response_type")) → Unchecked p req tr params
  /-- The adapter raised an `OAuth2Error` while it looked up the client. -/
  | lookup (id : PyStr) (x : OErr) : (⟨.findClient id, .error (.oauth x)⟩ : Ev) ∈ tr → params = x.params →
      Unchecked p req tr params

/-- C46, what holds: a redirect goes to the error page of the provider or to a redirect URI that is registered for the client
of the request, except for errors in the three cases of `Unchecked`; a redirect that carries a code always goes to a registered
redirect URI. What is missing are the three exceptions (`C46_refuted`). -/
theorem C46_partial (env : OEnv) (table : Hooks) (hb : Benign table) (p : Provider) (req : Request) (tr : List Ev)
    (r : Response) (h : Exec (p.authorize env table req) tr (.ok r)) :
    ∃ url params, RedirectsTo r url params ∧
      (RegisteredUri req tr url ∨
        (Dict.get params (py! "code") = none ∧
          (url = p.cfg.errorUrl ∨
            (Dict.get req.data (py! "redirect_uri") = some url ∧ Unchecked p req tr params)))) := by
  rcases authorize_redirect hb h with ⟨uri, code, response, hd, hr⟩ | ⟨x, url, hf, hr, hu⟩
  · exact ⟨uri, _, hr, Or.inl hd.registered⟩
  · refine ⟨url, _, hr, ?_⟩
    rcases hu with ⟨-, hu⟩ | ⟨hk, hu⟩
    · exact Or.inr ⟨rfl, Or.inl hu⟩
    · have key : ∀ uri, RegisteredUri req tr uri → RegisteredUri req tr url := by
        rintro uri ⟨id, c, h1, h2, h3, h4⟩
        rw [hu] at h3
        cases h3
        exact ⟨id, c, h1, h2, hu, h4⟩
      generalize he : OExc.oauth x = e at hf
      cases hf with
      | fatal d _ => cases he; exact absurd rfl hk
      | denied uri h1 _ => cases he; exact Or.inr ⟨rfl, Or.inr ⟨hu, .denied h1 rfl⟩⟩
      | unsupported uri rt y h1 h2 h3 h4 h5 =>
        cases he
        refine Or.inr ⟨rfl, Or.inr ⟨hu, .responseType rt h2 h3 ?_⟩⟩
        change some x.error = _
        rw [h5.error, h4]
        rfl
      | lookup uri id e _ h2 => subst he; exact Or.inr ⟨rfl, Or.inr ⟨hu, .lookup id x h2 rfl⟩⟩
      | lib uri y h1 _ => exact Or.inl (key uri h1)
      | app uri id c u e h1 _ _ => exact Or.inl (key uri h1)
      | encode uri code response e hd _ => exact Or.inl (key uri hd.registered)

/-- C46 without exceptions for a request of a logged-in user for a supported response type, if the adapter does not raise when
it looks up a client. -/
theorem C46_logged_in_partial (env : OEnv) (table : Hooks) (hb : Benign table) (p : Provider) (req : Request) (tr : List Ev)
    (r : Response) (h : Exec (p.authorize env table req) tr (.ok r)) (hu : req.user ≠ none)
    (hg : .authorizationCode ∈ p.grants) (hrt : Dict.get req.data (py! "response_type") = some (py! "code"))
    (hl : ∀ id x, (⟨.findClient id, .error (.oauth x)⟩ : Ev) ∉ tr) :
    ∃ url params, RedirectsTo r url params ∧ (RegisteredUri req tr url ∨ url = p.cfg.errorUrl) := by
  obtain ⟨url, params, h1, h2 | ⟨-, h2 | ⟨-, h2⟩⟩⟩ := C46_partial env table hb p req tr r h
  · exact ⟨url, params, h1, Or.inl h2⟩
  · exact ⟨url, params, h1, Or.inr h2⟩
  · cases h2 with
    | denied h3 _ => exact absurd h3 hu
    | responseType rt h3 h4 _ =>
      rw [hrt] at h3
      cases h3
      exact absurd hg (h4 rfl)
    | lookup id x h3 _ => exact absurd h3 (hl id x)

/-! ## C47: the state -/

/-- C47 is false: the `access_denied` redirect drops the state. -/
theorem C47_refuted : ¬ ∀ (env : OEnv) (p : Provider) (req : Request) (tr : List Ev) (r : Response),
    (∀ ev ∈ tr, ∃ a, ev.ans = .ok a) → Exec (p.authorize env Hooks.empty req) tr (.ok r) →
      ∃ url params, RedirectsTo r url params ∧
        (url = p.cfg.errorUrl ∨ (Dict.get params (py! "state")).join = Dict.get req.data (py! "state")) := by
  intro H
  have hr : isRedirect (py! "https://c/cb?error=access_denied") (toyAuth toyUsual (toyGet toyAuthQuery none)).2 = true := by
    decide +kernel
  have htr : (toyAuth toyUsual (toyGet toyAuthQuery none)).1.length = 0 := by decide +kernel
  obtain ⟨r, hr, hs, hl⟩ := isRedirect_iff hr
  have hx := toyAuth_exec toyUsual (toyGet toyAuthQuery none)
  rw [hr, List.length_eq_zero_iff.mp htr] at hx
  obtain ⟨url, params, ⟨-, base, q, h1, h2, h3⟩, h4⟩ := H _ _ _ _ _ (by simp) hx
  rw [hl] at h2
  have h2 := Option.some.inj h2
  rcases h4 with rfl | h4
  · rw [show quotePlus locSafe toyProvider.cfg.errorUrl = .ok (py! "https://s/error") by decide +kernel] at h1
    cases h1
    simp at h2
  · have hst : Dict.get (toyGet toyAuthQuery none).data (py! "state") = some (py! "x &y") := by decide +kernel
    rw [hst] at h4
    -- the query would have to contain the state
    have hmem : (py! "state", py! "x &y") ∈ visible params := by
      have : Dict.get params (py! "state") = some (some (py! "x &y")) := by
        cases hg : Dict.get params (py! "state") with
        | none => rw [hg] at h4; cases h4
        | some o => rw [hg] at h4; cases o <;> simp_all
      unfold visible
      rw [List.mem_filterMap]
      exact ⟨_, Dict.mem_of_get this, rfl⟩
    rw [← h3] at hmem
    have hsub : (urldecode q).all (fun kv => decide (kv ≠ (py! "state", py! "x &y"))) = true := by
      have hq : q = (py! "https://c/cb?error=access_denied").drop (base.length + 1) := by
        rw [h2]
        simp
      have hb : base.length + 1 ≤ (py! "https://c/cb?error=access_denied").length := by
        rw [h2]; simp
      rw [hq]
      have hlen : (py! "https://c/cb?error=access_denied").length = 32 := rfl
      rw [hlen] at hb
      generalize base.length + 1 = n at hb
      have : ∀ n : Fin 33, (urldecode ((py! "https://c/cb?error=access_denied").drop n.val)).all
        (fun kv => decide (kv ≠ (py! "state", py! "x &y"))) = true := by decide +kernel
      exact this ⟨n, by omega⟩
    have := List.all_eq_true.mp hsub _ hmem
    simp at this

/-- The application raises no `OAuth2Error` in the execution. -/
structure NoAppErrors (table : Hooks) (tr : List Ev) : Prop where
  adapter : ∀ o x, (⟨o, .error (.oauth x)⟩ : Ev) ∉ tr
  clients : ∀ id c v x, FoundClient tr id c → ScopeArg v → c.allowedScopes v ≠ .error (.oauth x)
  requestHooks : ∀ f ∈ table.authorizationRequest, ∀ data tr' x, tr' ⊆ tr → ¬ Exec (f data) tr' (.error (.oauth x))
  responseHooks : ∀ f ∈ table.authorizationResponse, ∀ code data client user tr' x, tr' ⊆ tr →
    ¬ Exec (f code data client user) tr' (.error (.oauth x))

/-- C47, what holds: unless nobody is logged in, a redirect either goes to the error page of the provider, or carries exactly
the state of the request (none if the request has none). Errors raised by the application carry whatever state they were given
(`NoAppErrors` excludes them). What is missing is the case that nobody is logged in (`C47_refuted`). -/
theorem C47_partial (env : OEnv) (table : Hooks) (hb : Benign table) (p : Provider) (req : Request) (tr : List Ev)
    (r : Response) (hno : NoAppErrors table tr) (hu : req.user ≠ none) (h : Exec (p.authorize env table req) tr (.ok r)) :
    ∃ url params, RedirectsTo r url params ∧
      ((url = p.cfg.errorUrl ∧ (Dict.get params (py! "state")).join = none) ∨
        (Dict.get req.data (py! "redirect_uri") = some url ∧
          (Dict.get params (py! "state")).join = Dict.get req.data (py! "state"))) := by
  rcases authorize_redirect hb h with ⟨uri, code, response, hd, hr⟩ | ⟨x, url, hf, hr, hurl⟩
  · obtain ⟨hok, -, hst⟩ := authorizeDone_response hb hd
    refine ⟨uri, _, hr, Or.inr ⟨?_, get_strParams_optVal env hok hst⟩⟩
    obtain ⟨id, c, -, -, h3, -⟩ := hd.registered
    exact h3
  · refine ⟨url, _, hr, ?_⟩
    have lib : AuthLibErr req.data x → ((url = p.cfg.errorUrl ∧ (Dict.get x.params (py! "state")).join = none) ∨
        (Dict.get req.data (py! "redirect_uri") = some url ∧
          (Dict.get x.params (py! "state")).join = Dict.get req.data (py! "state"))) := by
      intro hx
      rcases hurl with ⟨hk, -⟩ | ⟨-, hurl⟩
      · exact absurd hk hx.kind
      · exact Or.inr ⟨hurl, hx.state⟩
    generalize he : OExc.oauth x = e at hf
    cases hf with
    | fatal d _ =>
      cases he
      rcases hurl with ⟨-, hurl⟩ | ⟨hk, -⟩
      · exact Or.inl ⟨hurl, rfl⟩
      · exact absurd rfl hk
    | denied uri h1 _ => exact absurd h1 hu
    | unsupported uri rt y h1 h2 h3 h4 h5 => cases he; exact lib h5
    | lookup uri id e _ h2 => subst he; exact absurd h2 (hno.adapter _ x)
    | lib uri y h1 h2 => cases he; exact lib h2
    | app uri id c u e _ hc h2 =>
      subst he
      rcases h2 with ⟨o, h2⟩ | ⟨acc, f, hf, acc', tr', -, hs, hx⟩ | ⟨code, valid, acc, f, hf, acc', tr', -, hs, hx⟩ | ⟨v, h2⟩
      · exact absurd h2 (hno.adapter o x)
      · obtain ⟨g, hg, rfl⟩ := List.mem_map.mp hf
        exact absurd hx (hno.requestHooks g hg _ _ _ hs.subset)
      · obtain ⟨g, hg, rfl⟩ := List.mem_map.mp hf
        exact absurd hx (hno.responseHooks g hg _ _ _ _ _ _ hs.subset)
      · exact absurd h2.2 (hno.clients id c v x hc h2.1)
    | encode uri code response e hd hx =>
      subst he
      rcases hx with hx | ⟨_, y, _, _, hx⟩
      · unfold urlencodeVals at hx
        split at hx
        · cases hx
        · revert hx
          cases urlencode uri ((fullDict response).map fun kv => (kv.1, some (env.str kv.2))) <;> intro hx <;> cases hx
      · cases hx

/-- The toy adapter raises no `OAuth2Error`. -/
theorem toy_noAppErrors (code : AuthCode) (rt : RefreshTok) (req : Request) :
    NoAppErrors Hooks.empty (toyAuth (toyAdapter toyClient code rt) req).1 := by
  have ha : ∀ ev ∈ (toyAuth (toyAdapter toyClient code rt) req).1, ∃ h', ev.ans = toyAdapter toyClient code rt h' ev.op := by
    intro ev hev
    rcases run_answers _ _ _ ev hev with h | h
    · cases h
    · exact h
  refine ⟨?_, ?_, ?_, ?_⟩
  · intro o x hev
    obtain ⟨h', h⟩ := ha _ hev
    cases o <;> cases h
  · intro id c v x hev _ hv
    obtain ⟨h', h⟩ := ha _ hev
    unfold toyAdapter at h
    dsimp only at h
    split at h
    · cases h
      unfold toyClient at hv
      dsimp only at hv
      split at hv <;> cases hv
    · cases h
  · intro f hf; cases hf
  · intro f hf; cases hf

/-- The conditions of C47 are satisfiable. -/
example : ∃ r, (toyAuth toyUsual toyAuthRequest).2 = .ok r ∧ ∃ url params, RedirectsTo r url params ∧
    ((url = toyProvider.cfg.errorUrl ∧ (Dict.get params (py! "state")).join = none) ∨
      (Dict.get toyAuthRequest.data (py! "redirect_uri") = some url ∧
        (Dict.get params (py! "state")).join = Dict.get toyAuthRequest.data (py! "state"))) := by
  have h : isRedirect (py! "https://c/cb?code=" ++ toyDrawn ++ py! "&state=x+%26y") (toyAuth toyUsual toyAuthRequest).2 = true := by
    decide +kernel
  obtain ⟨r, hr, -⟩ := isRedirect_iff h
  have hx := toyAuth_exec toyUsual toyAuthRequest
  rw [hr] at hx
  exact ⟨r, hr, C47_partial _ _ benign_empty _ _ _ _ (toy_noAppErrors _ _ _) (by decide) hx⟩

/-! ## C48: reading the response -/

/-- A client whose redirect URI has a query. -/
def toyQueryClient : Client := { toyClient with redirectUris := [py! "https://c/cb?x=1"] }

/-- An adapter with this client. -/
def toyQueryAdapter : List Ev → (o : Op) → ORes o.Ans := toyAdapter toyQueryClient (toyCode []) (toyRefresh [])

/-- A valid request for this client. -/
def toyQueryRequest : Request :=
  toyGet (Dict.set toyAuthQuery (py! "redirect_uri") (py! "https://c/cb?x=1")) (some toyUser)

/-- C48 is false: for a registered redirect URI with a query, the response is appended with a second question mark, and the
client does not find the code. -/
theorem C48_refuted : ¬ ∀ (env : OEnv) (p : Provider) (req : Request) (pre post : List Ev) (code : PyStr)
    (data : Dict PyStr Val) (c : Client) (u : User) (r : Response),
    Exec (p.authorize env Hooks.empty req) (pre ++ ⟨.saveCode code data c u, .ok ()⟩ :: post) (.ok r) →
      ∃ loc, location r = some loc ∧ Dict.get (urldecode (urlQuery loc)) (py! "code") = some code := by
  intro H
  have hr : isRedirect (py! "https://c/cb?x=1?code=" ++ toyDrawn ++ py! "&state=x+%26y") (toyAuth toyQueryAdapter toyQueryRequest).2 =
      true := by decide +kernel
  have hs : (toyAuth toyQueryAdapter toyQueryRequest).1.any savesCode = true := by decide +kernel
  have hx := toyAuth_exec toyQueryAdapter toyQueryRequest
  have hall : ∀ ev ∈ (toyAuth toyQueryAdapter toyQueryRequest).1, ∃ h', ev.ans = toyQueryAdapter h' ev.op := by
    intro ev hev
    rcases run_answers toyQueryAdapter _ _ ev hev with h | h
    · cases h
    · exact h
  generalize toyAuth toyQueryAdapter toyQueryRequest = run at hr hs hx hall
  obtain ⟨r, hr, -, hl⟩ := isRedirect_iff hr
  obtain ⟨pre, post, code, data, c, u, ans, heq⟩ := split_saves hs
  rw [heq] at hx hall
  rw [hr] at hx
  obtain ⟨h', ha⟩ := hall _ (List.mem_append_right _ List.mem_cons_self)
  cases ha
  obtain ⟨loc, h1, h2⟩ := H _ _ _ _ _ _ _ _ _ _ hx
  rw [hl] at h1
  cases h1
  rw [show Dict.get (urldecode (urlQuery (py! "https://c/cb?x=1?code=" ++ toyDrawn ++ py! "&state=x+%26y"))) (py! "code") =
    none by decide +kernel] at h2
  cases h2

/-- C48, what holds: for a registered redirect URI without query and fragment, the client reads from the Location header of a
response with a code exactly the code that was stored, and the state of the request. Hooks may add other parameters. What is
missing are redirect URIs with a query (`C48_refuted`). -/
theorem C48_partial (env : OEnv) (table : Hooks) (hb : Benign table) (p : Provider) (req : Request) (tr : List Ev)
    (r : Response) (uri : PyStr) (h : Exec (p.authorize env table req) tr (.ok r))
    (hu : Dict.get req.data (py! "redirect_uri") = some uri) (h1 : 63 ∉ uri) (h2 : 35 ∉ uri) :
    (∃ code data c u, (⟨.saveCode code data c u, .ok ()⟩ : Ev) ∈ tr ∧ Authorizes p req tr c u data ∧
      ∃ loc, location r = some loc ∧
        Dict.get (urldecode (urlQuery loc)) (py! "code") = some code ∧
        (∀ s, s ≠ [] → (Dict.get (urldecode (urlQuery loc)) (py! "state") = some s ↔
          Dict.get req.data (py! "state") = some s)) ∧
        (table.authorizationResponse = [] → ∀ k, k ≠ py! "code" → k ≠ py! "state" →
          Dict.get (urldecode (urlQuery loc)) k = none)) ∨
    ∃ x : OErr, ∃ url, RedirectsTo r url x.params := by
  rcases authorize_response hb h with ⟨uri', code, response, url, hd, hue, hr⟩ | ⟨x, -, hr⟩
  · left
    obtain ⟨hok, hcode, hst⟩ := authorizeDone_response hb hd
    obtain ⟨⟨id, c0, -, -, h3, -⟩, c, u, valid, ha, hs, hdrawn, tr', hx, -⟩ := hd
    rw [hu] at h3
    cases h3
    obtain ⟨loc, hloc, hdec⟩ := redirect_query (ok_strParams env hok) (urlencodeVals_ok hue) hr h1 h2
    refine ⟨code, valid, c, u, hs, ha, loc, hloc, ?_⟩
    rw [hdec]
    have hvis : ∀ k v, Dict.get (visible (strParams env response)) k = some v ↔
        v ≠ [] ∧ (Dict.get (strParams env response) k).join = some v := by
      have hokp := ok_strParams env hok
      generalize strParams env response = d at hokp
      intro k v
      have : Dict.Ok (visible d) := by
        unfold Dict.Ok Dict.keys at hokp ⊢
        refine List.Nodup.sublist ?_ hokp
        clear hokp hdec
        induction d with
        | nil => simp [visible]
        | cons p d ih =>
          obtain ⟨k, v⟩ := p
          match v with
          | none => exact List.Sublist.cons _ ih
          | some [] => exact List.Sublist.cons _ ih
          | some (a :: v) => exact List.Sublist.cons_cons _ ih
      constructor
      · intro hg
        have hm := Dict.mem_of_get hg
        unfold visible at hm
        obtain ⟨⟨k', o⟩, hmd, ho⟩ := List.mem_filterMap.mp hm
        match o, ho, hmd with
        | some (a :: w), ho, hmd =>
          cases ho
          rw [Dict.get_of_mem hokp hmd]
          exact ⟨by simp, rfl⟩
      · rintro ⟨hne, hj⟩
        refine Dict.get_of_mem this ?_
        cases hg : Dict.get d k with
        | none => rw [hg] at hj; cases hj
        | some o =>
          rw [hg] at hj
          cases hj
          unfold visible
          rw [List.mem_filterMap]
          refine ⟨_, Dict.mem_of_get hg, ?_⟩
          match v, hne with
          | a :: v, _ => rfl
    refine ⟨?_, ?_, ?_⟩
    · rw [hvis]
      refine ⟨?_, get_strParams_optVal env hok (o := some code) hcode⟩
      obtain ⟨choices, -, hdr⟩ := hdrawn
      have hne : choices.val ≠ [] := by
        intro hn
        have := choices.property
        rw [hn] at this
        cases this
      intro hn
      subst hn
      obtain ⟨s, h3, h4, -⟩ := C10_secret_token choices.val hne
      rw [hdr] at h3
      cases h3
      exact hne (List.length_eq_zero_iff.mp h4.symm)
    · intro s hs
      rw [hvis, get_strParams_optVal env hok hst]
      exact ⟨fun h => h.2, fun h => ⟨hs, h⟩⟩
    · intro hn k hk1 hk2
      rw [authResponseHooks, hn] at hx
      cases hx
      cases hg : Dict.get (visible (strParams env _)) k with
      | none => rfl
      | some v =>
        rw [hvis] at hg
        exfalso
        have := hg.2
        rw [get_strParams] at this
        have hnone : Dict.get (fullDict [(py! "code", .str code), (py! "state", optVal (Dict.get req.data (py! "state")))]) k =
            none := by
          refine get_fullDict_none ?_
          simp [Dict.get_cons, Ne.symm hk1, Ne.symm hk2]
        rw [hnone] at this
        cases this
  · right
    obtain ⟨url, h1, -⟩ := authorizationError_ok hr
    exact ⟨x, url, h1⟩

/-! ## C62 (authorization endpoint) -/

/-- C62 at the authorization endpoint: every redirect carries a code, or exactly the members of an error that are set. -/
theorem C62_authorization_endpoint (env : OEnv) (table : Hooks) (hb : Benign table) (p : Provider) (req : Request)
    (tr : List Ev) (r : Response) (h : Exec (p.authorize env table req) tr (.ok r)) :
    (∃ uri code params, RedirectsTo r uri params ∧ Dict.get params (py! "code") = some (some code) ∧
      ∃ data c u, (⟨.saveCode code data c u, .ok ()⟩ : Ev) ∈ tr) ∨
    ∃ (x : OErr) (url : PyStr), RedirectsTo r url [(py! "error", x.error), (py! "error_description", x.description),
      (py! "error_uri", x.uri), (py! "state", x.state)] := by
  rcases authorize_redirect hb h with ⟨uri, code, response, hd, hr⟩ | ⟨x, url, -, hr, -⟩
  · refine Or.inl ⟨uri, code, _, hr, ?_, ?_⟩
    · rw [get_strParams, get_fullDict_some (authorizeDone_response hb hd).2.1 (by simp)]
      rfl
    · obtain ⟨c, u, valid, -, hs, -⟩ := hd.done
      exact ⟨valid, c, u, hs⟩
  · exact Or.inr ⟨x, url, hr⟩

/-! ## C45: the endpoint always redirects -/

/-- C45 is false: a redirect URI with a lone surrogate ends with a `UnicodeEncodeError`, although no adapter call fails. (Such a
text can be in the query of a request, because URLs are not checked.) -/
theorem C45_refuted : ¬ ∀ (env : OEnv) (p : Provider) (req : Request) (tr : List Ev) (out : ORes Response),
    (∀ ev ∈ tr, ∃ a, ev.ans = .ok a) → Exec (p.authorize env Hooks.empty req) tr out → ∃ r, out = .ok r := by
  intro H
  let req := toyGet (Dict.set toyAuthQuery (py! "redirect_uri") [0xD800]) none
  have hr : escapes .unicodeEncode (toyAuth toyUsual req).2 = true := by decide +kernel
  have htr : (toyAuth toyUsual req).1.length = 0 := by decide +kernel
  have hx := toyAuth_exec toyUsual req
  rw [List.length_eq_zero_iff.mp htr] at hx
  obtain ⟨r, hr'⟩ := H _ _ _ _ _ (by simp) hx
  rw [hr'] at hr
  cases hr

/-- The request of the counterexample can be received. -/
example : (Request.init (py! "GET") (py! "https://s/authorize?redirect_uri=" ++ [0xD800] ++ py! "&client_id=c1&response_type=code")
    [] none none).map (fun r => Dict.get r.data (py! "redirect_uri")) = .ok (some [0xD800]) := by decide +kernel

/-- The application does its part at the authorization endpoint: adapter, clients and hooks raise at most errors that can be
reported, and response hooks add parameters that can be encoded, none of which is called `url`. -/
structure CooperatesA (env : OEnv) (table : Hooks) (tr : List Ev) : Prop where
  adapter : ∀ o e, (⟨o, .error e⟩ : Ev) ∈ tr → Calm e
  clients : ∀ id c v e, FoundClient tr id c → ScopeArg v → c.allowedScopes v = .error e → Calm e
  requestHooks : ∀ f ∈ table.authorizationRequest, ∀ data tr' e, tr' ⊆ tr → Exec (f data) tr' (.error e) → Calm e
  responseHooks : ∀ f ∈ table.authorizationResponse, ∀ code data client user tr', tr' ⊆ tr →
    (∀ e, Exec (f code data client user) tr' (.error e) → Calm e) ∧
    (∀ d, Exec (f code data client user) tr' (.ok (some d)) →
      ∀ k v, (k, v) ∈ d → k ≠ py! "url" ∧ Encodable k ∧ Encodable (env.str v))

/-- A response that the application does not spoil can be encoded. -/
theorem urlencodeVals_total {env : OEnv} {table : Hooks} (hb : Benign table) {p : Provider} {req : Request} {tr : List Ev}
    {uri code : PyStr} {response : Dict PyStr Val} (hco : CooperatesA env table tr)
    (hd : AuthorizeDone env table p req tr uri code response) (hst : ∀ s, Dict.get req.data (py! "state") = some s → Encodable s) :
    ∃ u, urlencodeVals env uri response = .ok u := by
  obtain ⟨-, c, u, valid, -, -, ⟨choices, -, hdr⟩, tr', hx, hs⟩ := hd
  have hinv : ∀ k v, (k, v) ∈ response → k ≠ py! "url" ∧ Encodable k ∧ Encodable (env.str v) := by
    refine runHooks_inv (reserved := authResponseKeys) (h := tr')
      (I := fun d => ∀ k v, (k, v) ∈ d → k ≠ py! "url" ∧ Encodable k ∧ Encodable (env.str v))
      (acc0 := [(py! "code", .str code), (py! "state", optVal (Dict.get req.data (py! "state")))])
      (benign_authResponse hb code valid c u) ?_ (fun _ _ => rfl) ?_ List.infix_rfl hx
    · intro f hf acc tr2 d _ hs2 hx2 hi k v hkv
      obtain ⟨g, hg, rfl⟩ := List.mem_map.mp hf
      rcases Dict.mem_update hkv with h | h
      · exact hi k v h
      · exact (hco.responseHooks g hg code valid c u tr2 (fun x hx => hs (hs2.subset hx))).2 d hx2 k v h
    · intro k v hkv
      simp only [List.mem_cons, List.not_mem_nil, or_false, Prod.mk.injEq] at hkv
      rcases hkv with ⟨rfl, rfl⟩ | ⟨rfl, rfl⟩
      · refine ⟨by decide, encodable_ascii (by decide), ?_⟩
        have hne : choices.val ≠ [] := by
          intro hn
          have := choices.property
          rw [hn] at this
          cases this
        obtain ⟨s, h3, -, h5⟩ := C10_secret_token choices.val hne
        rw [hdr] at h3
        cases h3
        refine encodable_ascii (s := code) ?_
        intro ch hch
        have := h5.1 ch hch
        omega
      · refine ⟨by decide, encodable_ascii (by decide), ?_⟩
        cases h : Dict.get req.data (py! "state") with
        | none => exact encodable_ascii (s := py! "None") (by decide)
        | some s => exact hst s h
  unfold urlencodeVals
  split
  · rename_i hm
    exfalso
    unfold Dict.mem at hm
    obtain ⟨v, hv⟩ := Option.isSome_iff_exists.mp hm
    exact (hinv _ _ (Dict.mem_of_get hv)).1 rfl
  · obtain ⟨u, hu⟩ := C05_urlencode_total uri (strParams env response) (by
      intro k v hkv
      unfold strParams at hkv
      obtain ⟨⟨k', v'⟩, hm, heq⟩ := List.mem_map.mp hkv
      cases heq
      exact (hinv _ _ (List.mem_filter.mp hm).1).2)
    unfold strParams at hu
    rw [hu]
    exact ⟨u, rfl⟩

/-- C45, what holds: for a request without lone surrogates the endpoint redirects, unless the application raises something that
cannot be reported. What is missing are requests with lone surrogates in the query (`C45_refuted`). -/
theorem C45_partial (env : OEnv) (table : Hooks) (hb : Benign table) (p : Provider) (req : Request) (tr : List Ev)
    (out : ORes Response) (hco : CooperatesA env table tr)
    (hurl : Encodable p.cfg.errorUrl) (hquery : ∀ k v, Dict.get req.query k = some v → Encodable v)
    (h : Exec (p.authorize env table req) tr out) :
    ∃ r, out = .ok r ∧ r.status = 303 ∧ ∃ loc, location r = some loc := by
  have hdata : ∀ k v, Dict.get req.data k = some v → Encodable v := fun k v hk => encodable_data hquery hk
  have hcalm : ∀ e, AuthFail env table p req tr e → Calm e := by
    intro e hf
    have lib : ∀ x, AuthLibErr req.data x → Calm (.oauth x) := by
      intro x hx
      refine ⟨x, rfl, by rw [hx.headers]; simp [Dict.Ok, Dict.keys], ?_⟩
      intro t ht
      rcases ht with ht | ht | ht | ht
      · rw [hx.error] at ht
        cases ht
        cases x.kind <;> exact encodable_ascii (by decide)
      · intro ch hch
        rcases hx.text t ht ch hch with hc | ⟨k, v, hk, hv⟩
        · exact encodable_ascii (s := [ch]) (by simpa using hc) ch (by simp)
        · exact hdata k v hk ch hv
      · rw [hx.uri] at ht; cases ht
      · rw [hx.state] at ht; exact hdata _ _ ht
    cases hf with
    | fatal d hd =>
      refine ⟨_, rfl, by simp [OErr.fatal, Dict.Ok, Dict.keys], ?_⟩
      intro t ht
      rcases ht with ht | ht | ht | ht
      · cases ht; exact encodable_ascii (by decide)
      · cases ht; exact encodable_ascii hd
      · cases ht
      · cases ht
    | denied uri _ _ =>
      refine ⟨_, rfl, by simp [OErr.mk', Dict.Ok, Dict.keys], ?_⟩
      intro t ht
      rcases ht with ht | ht | ht | ht
      · cases ht; exact encodable_ascii (by decide)
      · cases ht
      · cases ht
      · cases ht
    | unsupported uri rt x _ _ _ _ h5 => exact lib x h5
    | lookup uri id e _ h2 => exact hco.adapter _ _ h2
    | lib uri x _ h2 => exact lib x h2
    | app uri id c u e _ hc h2 =>
      rcases h2 with ⟨o, h2⟩ | ⟨acc, f, hf, acc', tr', -, hs, hx⟩ | ⟨code, valid, acc, f, hf, acc', tr', -, hs, hx⟩ | ⟨v, hv, h2⟩
      · exact hco.adapter o e h2
      · obtain ⟨g, hg, rfl⟩ := List.mem_map.mp hf
        exact hco.requestHooks g hg _ _ _ hs.subset hx
      · obtain ⟨g, hg, rfl⟩ := List.mem_map.mp hf
        exact (hco.responseHooks g hg _ _ _ _ _ hs.subset).1 e hx
      · exact hco.clients id c v e hc hv h2
    | encode uri code response e hd hx =>
      exfalso
      obtain ⟨u, hu⟩ := urlencodeVals_total hb hco hd (hdata _)
      rcases hx with hx | ⟨url, x, hx, hr, -⟩
      · rw [hu] at hx; cases hx
      · rw [hu] at hx
        cases hx
        obtain ⟨id, c, -, -, h3, -⟩ := hd.registered
        obtain ⟨r, hr'⟩ := redirectResponse_ok (encodable_urlencode (hdata _ _ h3) (urlencodeVals_ok hu)) []
        rw [hr] at hr'
        cases hr'
  cases out with
  | ok r =>
    refine ⟨r, rfl, ?_⟩
    rcases authorize_redirect hb h with ⟨uri, code, response, -, hr⟩ | ⟨x, url, -, hr, -⟩
    · obtain ⟨h1, base, q, -, h2, -⟩ := hr
      exact ⟨h1, _, h2⟩
    · obtain ⟨h1, base, q, -, h2, -⟩ := hr
      exact ⟨h1, _, h2⟩
  | error e =>
    exfalso
    rcases wpp_exec_error h (wpp_authorize hb p req) answers_true with ⟨hf, x, rfl⟩ | ⟨x, hf, hr⟩
    · obtain ⟨y, hy, -⟩ := (hcalm _ hf).is
      cases hy
    · obtain ⟨_, ⟨⟩, -, henc⟩ := (hcalm _ hf).is
      unfold authorizationError at hr
      split at hr
      · obtain ⟨r, hr'⟩ := errorRedirect_ok hurl henc
        rw [hr] at hr'; cases hr'
      · rename_i hk
        have huri : ∃ uri, Dict.get req.data (py! "redirect_uri") = some uri := by
          generalize he : OExc.oauth x = e' at hf
          cases hf with
          | fatal d _ => cases he; exact absurd rfl hk
          | denied uri _ h2 => exact ⟨uri, h2⟩
          | unsupported uri rt y h1 _ _ _ _ => exact ⟨uri, h1⟩
          | lookup uri id e h1 _ => exact ⟨uri, h1⟩
          | lib uri y h1 _ => obtain ⟨_, _, _, _, h3, _⟩ := h1; exact ⟨uri, h3⟩
          | app uri id c u e h1 _ _ => obtain ⟨_, _, _, _, h3, _⟩ := h1; exact ⟨uri, h3⟩
          | encode uri code response e hd _ => obtain ⟨_, _, _, _, h3, _⟩ := hd.registered; exact ⟨uri, h3⟩
        obtain ⟨uri, huri⟩ := huri
        rw [param_ok huri] at hr
        obtain ⟨r, hr'⟩ := errorRedirect_ok (hdata _ _ huri) henc
        dsimp only at hr
        rw [hr] at hr'; cases hr'

/-- The conditions of C45 are satisfiable. -/
example : ∃ r, (toyAuth toyUsual toyAuthRequest).2 = .ok r ∧ r.status = 303 ∧ ∃ loc, location r = some loc := by
  refine C45_partial toyEnv Hooks.empty benign_empty toyProvider toyAuthRequest _ _ ?_ (encodable_ascii (by decide)) ?_ (toyAuth_exec toyUsual toyAuthRequest)
  · have ha : ∀ ev ∈ (toyAuth toyUsual toyAuthRequest).1, ∃ h', ev.ans = toyUsual h' ev.op := by
      intro ev hev
      rcases run_answers _ _ _ ev hev with h | h
      · cases h
      · exact h
    have hk : (toyAuth toyUsual toyAuthRequest).1.all
      (fun ev => match ev with | ⟨.getKeyInfo, _⟩ => false | _ => true) = true := by decide +kernel
    refine ⟨?_, ?_, ?_, ?_⟩
    · intro o e hev
      obtain ⟨h', h⟩ := ha _ hev
      have := List.all_eq_true.mp hk _ hev
      cases o <;> first | (cases h; done) | (cases this; done)
    · intro id c v e hev _ hv
      obtain ⟨h', h⟩ := ha _ hev
      unfold toyUsual toyAdapter at h
      dsimp only at h
      split at h
      · cases h
        unfold toyClient at hv
        dsimp only at hv
        split at hv <;> cases hv
      · cases h
    · intro f hf; cases hf
    · intro f hf; cases hf
  · intro k v hk
    have hall : toyAuthQuery.all (fun kv => decide (∀ c ∈ kv.2, c < 128)) = true := by decide +kernel
    have := List.all_eq_true.mp hall _ (Dict.mem_of_get hk)
    exact encodable_ascii (by simpa using this)

end Psion.Props
