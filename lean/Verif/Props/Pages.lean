import Verif.Example.PageLemmas
import Verif.Props.Errors
import Verif.Props.WebLogin
import Verif.Props.ToyWeb

/-!
# Properties C97, C98: the pages of the example application
-/

namespace Psion.Props

open Psion Spec Example

variable {env : OEnv} {table : Hooks} {emailOk : PyStr → Bool}

/-! ## C97: the error page -/

/-- C97: whatever the query string of a request to the error page is, the page has the same markup, and it shows the parameters
`error` and `error_description` as they are. -/
theorem C97_error_page (req : WebRequest) :
    beside (py! "Description: ") (readHtml (errorPage req)) =
      some ((Dict.get (queryParams req) (py! "error_description")).getD (py! "None")) ∧
    beside (py! "Error code: ") (readHtml (errorPage req)) = some ((Dict.get (queryParams req) (py! "error")).getD (py! "None")) ∧
    ∀ req' : WebRequest, tags (readHtml (errorPage req)) = tags (readHtml (errorPage req')) := by
  have h1 : ∀ p ∈ errorBefore, p ≠ .text (py! "Description: ") := by decide +kernel
  have h2 : ∀ p ∈ errorBefore, p ≠ .text (py! "Error code: ") := by decide +kernel
  have h3 : ∃ l, errorAfter = .tag [py! "/span"] :: l := ⟨errorAfter.tail, by decide +kernel⟩
  obtain ⟨l, hl⟩ := h3
  refine ⟨?_, ?_, ?_⟩
  · rw [errorPage_read, beside_append h1]
    simp [beside]
  · rw [errorPage_read, beside_append h2, hl]
    simp [beside]
  · intro req'
    rw [errorPage_read, errorPage_read]
    simp [tags]

/-- C97: an authorization request to the example application is answered with a redirect to the redirect URI of the request; or with
an error that the application has raised itself; or it is refused because something is wrong with the client, the redirect URI or the
parameters, and then the user agent is sent to the error page, which shows the error code and a description. -/
theorem C97_refused (hb : Benign table) (request : Request) (tr : List Ev) (r : Response)
    (h : Exec (exProvider.authorize env table request) tr (.ok r)) :
    (∃ uri params, Dict.get request.data (py! "redirect_uri") = some uri ∧ RedirectsTo r uri params) ∨
    (∃ x, AppRaises table tr x) ∨
    ∃ (f : AuthFault) (d q : PyStr), f.atHome = true ∧ f.Holds exProvider request tr ∧ d ≠ [] ∧
      location r = some (py! "/connect/error?" ++ q) ∧
      ∀ er : WebRequest, er.query = urlQuery (py! "/connect/error?" ++ q) →
        beside (py! "Error code: ") (readHtml (errorPage er)) = some f.rfc ∧
        beside (py! "Description: ") (readHtml (errorPage er)) = some d := by
  rcases wpp_exec_ok h (wpp_authorize_blame hb exProvider request) answers_true with ⟨uri, code, response, url, hd, hu, hr⟩ | ⟨x, hx, hr⟩
  · left
    have h1 := authorizeDone_response hb hd
    obtain ⟨⟨id, c0, -, -, h3, -⟩, -⟩ := hd
    exact ⟨uri, _, h3, redirect_spec (ok_strParams env h1.1) (urlencodeVals_ok hu) hr⟩
  · rcases hx x rfl with hx | ⟨f, hf, hc, hk, hdesc⟩
    · exact Or.inr (Or.inl ⟨x, hx⟩)
    · by_cases ha : f.atHome = true
      · right; right
        obtain ⟨d, hd, h1, h2, h3⟩ := hdesc ha
        unfold authorizationError at hr
        rw [if_pos (hk.mpr ha)] at hr
        obtain ⟨base, q, hbase, hl, hq⟩ := error_location hr (by decide) (by decide)
        have : base = py! "/connect/error" := by
          have h5 : quotePlus locSafe (exProvider.cfg.errorUrl) = .ok (py! "/connect/error") := by rfl
          rw [h5] at hbase
          cases hbase; rfl
        subst this
        refine ⟨f, d, q, ha, hf, hd, by rw [hl]; rfl, ?_⟩
        intro er her
        have hqp := hq er (by rw [her]; rfl)
        have hpar : someEntries x.params = [(py! "error", f.rfc), (py! "error_description", d)] := by
          unfold OErr.params someEntries
          rw [hc, h1, h2, h3]
          rfl
        rw [hpar] at hqp
        obtain ⟨k1, k2, -⟩ := C97_error_page er
        rw [hqp] at k1 k2
        exact ⟨k2, k1⟩
      · left
        obtain ⟨url, h1, h2⟩ := authorizationError_ok hr
        rcases h2 with ⟨h2, -⟩ | ⟨-, h2⟩
        · exact absurd (hk.mp h2) ha
        · exact ⟨url, _, h2, h1⟩

/-- An error page with markup in its parameters, and one without description. -/
example :
    beside (py! "Description: ") (readHtml (errorPage (webGet .error (py! "/connect/error")
      (py! "error=invalid_request&error_description=%3Cscript%3E%26amp%3B%22%27+x") none))) = some (py! "<script>&amp;\"' x") ∧
    beside (py! "Error code: ") (readHtml (errorPage (webGet .error (py! "/connect/error")
      (py! "error=invalid_request&error_description=%3Cscript%3E") none))) = some (py! "invalid_request") ∧
    beside (py! "Description: ") (readHtml (errorPage (webGet .error (py! "/connect/error") (py! "error=x") none))) =
      some (py! "None") := by
  decide +kernel

/-- The authorization request of a logged-in user for a client that does not exist. -/
def webUnknown : WebRequest :=
  webGet .authorize (py! "/connect/authorize") (py! "response_type=code&client_id=c9&redirect_uri=https://c/cb") (some webCookie)

/-- After the login, the request is refused, and the error page says why. -/
example :
    webServed ((webSim (fun | 0 => webLogin [] (py! "correct horse") | _ => webUnknown) (exTurn 0 4 2 ++ exTurn 1 2 3)).2.2 1) =
      some ⟨.response 303 [(py! "location", py! "/connect/error?error=invalid_request&error_description=Invalid+client.")] [], none⟩ ∧
    beside (py! "Description: ") (readHtml (errorPage (webGet .error (py! "/connect/error")
      (py! "error=invalid_request&error_description=Invalid+client.") none))) = some (py! "Invalid client.") := by
  decide +kernel

/-! ## C98: the login form -/

/-- C98: the form of a login page, whatever else is on the page, is sent to the URL under which the page was shown. -/
theorem C98_login_form (f : FormText) (req : WebRequest) (message : Option PyStr) :
    formAction (readHtml (loginPage f req message)) = some req.url := by
  have e1 : ∃ rest, loginForm req.url message = py! "        <form action=\"" ++ (escape req.url ++ 34 ::
      (py! " method=\"post\" class=\"mb-4\">" ++ rest)) := by
    unfold loginForm
    simp only [List.append_assoc]
    exact ⟨_, rfl⟩
  have e2 : loginStyles req = py! "\n<link rel=\"stylesheet\" type=\"text/css\" href=\"" ++
      (escape (req.site ++ py! "/static/css/forms.css") ++ 34 :: py! ">\n") := by
    unfold loginStyles
    rw [List.append_assoc]
  have hp : ∃ rest, loginPage f req message = loginHead ++ (escape (req.site ++ py! "/static/css/forms.css") ++ 34 :: (loginMid ++
      (escape req.url ++ 34 :: (py! " method=\"post\" class=\"mb-4\">" ++ rest)))) := by
    obtain ⟨rest, e1⟩ := e1
    refine ⟨rest ++ (loginFields f ++ baseEnd), ?_⟩
    unfold loginPage basePage loginHead loginMid
    rw [e1, e2]
    generalize py! "\n<link rel=\"stylesheet\" type=\"text/css\" href=\"" = x1
    generalize py! "        <form action=\"" = x2
    generalize py! " method=\"post\" class=\"mb-4\">" = x3
    generalize (py! "    <title>" ++ escape (py! "Login") ++ py! " - Psion</title>") = x4
    simp only [List.append_assoc, List.cons_append]
  obtain ⟨rest, hp⟩ := hp
  obtain ⟨l1, h1, k1⟩ := loginHead_run
  obtain ⟨l2, h2, k2⟩ := loginMid_run
    [py! "link rel=", py! "stylesheet", py! " type=", py! "text/css", py! " href=", req.site ++ py! "/static/css/forms.css"]
  unfold readHtml
  rw [hp, run_append (.text []) loginHead, h1, run_escape_value, run_append (.tag _ []) loginMid]
  rw [show ([py! "link rel=", py! "stylesheet", py! " type=", py! "text/css", py! " href="] ++ [req.site ++ py! "/static/css/forms.css"]) =
    [py! "link rel=", py! "stylesheet", py! " type=", py! "text/css", py! " href=", req.site ++ py! "/static/css/forms.css"] from rfl, h2,
    run_escape_value]
  have h3 : ∀ rest, ∃ l r, (Reader.tag [py! "form action=", req.url] []).run (py! " method=\"post\" class=\"mb-4\">" ++ rest) =
      (.tag [py! "form action=", req.url, py! " method=", py! "post", py! " class=", py! "mb-4", []] :: l, r) := by
    intro rest
    exact ⟨_, _, rfl⟩
  obtain ⟨l, r, h3⟩ := h3 rest
  rw [show ([py! "form action="] ++ [req.url]) = [py! "form action=", req.url] from rfl, h3]
  simp only [List.append_assoc]
  rw [formAction_append k1]
  rw [List.cons_append, formAction_other _ (by simp), formAction_append k2]
  rfl

/-- Attempts to log in: a login page is opened with the request `first`; whenever the answer to an attempt is a page with a form, the
next attempt is what the user agent sends when the form on that page is submitted. -/
inductive Attempts (env : OEnv) (table : Hooks) (emailOk : PyStr → Bool) (first : WebRequest) : WebRequest → Prop
  | opened : Attempts env table emailOk first first
  | sent (r r' : WebRequest) (tr : List WEv) (sv : Served) (p : Page) (f : FormText) (t : PyStr) :
    Attempts env table emailOk first r → WExec (app env table emailOk r) tr (.ok sv) → sv.reply = .page p →
    pageText f r p = some t → formAction (readHtml t) = some r'.url → r'.query = urlQuery r'.url →
    Attempts env table emailOk first r'

theorem attempts_same {first r : WebRequest} (h1 : first.query = urlQuery first.url) (h : Attempts env table emailOk first r) :
    r.url = first.url ∧ r.query = first.query := by
  induction h with
  | opened => exact ⟨rfl, rfl⟩
  | sent r r' tr sv p f t _ _ _ ht hf hq ih =>
    have hu : r'.url = r.url := by
      cases p with
      | home =>
        cases ht
        have : formAction (readHtml homePage) = none := by decide +kernel
        rw [this] at hf
        cases hf
      | login =>
        cases ht
        rw [C98_login_form] at hf
        exact (Option.some.inj hf).symm
      | invalidCredentials =>
        cases ht
        rw [C98_login_form] at hf
        exact (Option.some.inj hf).symm
      | error =>
        cases ht
        have h0 : formAction (readHtml (errorPage (webGet .error [] [] none))) = none := by decide +kernel
        rw [formAction_eq, (C97_error_page _).2.2 (webGet .error [] [] none), ← formAction_eq, h0] at hf
        cases hf
      | badRequest => cases ht
      | methodNotAllowed => cases ht
    rw [hq, hu, ih.1, h1]
    exact ⟨rfl, rfl⟩

/-- C98: a user who is not logged in and opens an authorization request is sent to the login page. However often the form on this page
and on the pages after failed attempts is submitted, the attempt that succeeds leads to exactly the authorization request from the
beginning. -/
theorem C98_detour (req : WebRequest) (tr : List WEv) (sv : Served) (hr : req.route = .authorize)
    (hm : req.method = py! "GET") (hx : WExec (app env table emailOk req) tr (.ok sv))
    (hn : ∀ sid uid x, (⟨.session sid uid, .ok (some x)⟩ : WEv) ∉ tr)
    (hs1 : 63 ∉ req.site) (hs2 : 35 ∉ req.site) (hu : req.url ≠ []) :
    ∃ loc, sv.reply = .response 303 [(py! "location", loc)] [] ∧
      ∀ (first r : WebRequest) (trl : List WEv) (svl : Served) (ck : Cookie), first.query = urlQuery loc →
        first.query = urlQuery first.url → Attempts env table emailOk first r →
        WExec (app env table emailOk r) trl (.ok svl) → svl.cookie = some ck →
        ∃ loc', quotePlus locSafe req.url = .ok loc' ∧ svl.reply = .response 303 [(py! "location", loc')] [] := by
  obtain ⟨-, base, loc, -, -, h1, h2⟩ := C72_login_detour req tr sv hr hm hx hn hs1 hs2 hu
  refine ⟨loc, h1, ?_⟩
  intro first r trl svl ck hq hc ha hxl hck
  obtain ⟨loc', k1, k2, -⟩ := h2 r trl svl ck ((attempts_same hc ha).2.trans hq) hxl hck
  exact ⟨loc', k1, k2⟩

/-- The login page of a request with markup in its URL, and the page after a wrong password. -/
example (f : FormText) :
    webServed ((webSim (fun _ => webGet .login (py! "/auth/login") (py! "next=%22%3E\"><form action=\"x") none) []).2.2 0) =
      some ⟨.page .login, none⟩ ∧
    pageText f (webGet .login (py! "/auth/login") (py! "next=\"><form action=\"x") none) .login =
      some (loginPage f (webGet .login (py! "/auth/login") (py! "next=\"><form action=\"x") none) none) ∧
    webServed ((webSim (fun _ => webLogin (py! "next=\"><form action=\"x") (py! "wrong horse")) (exTurn 0 4 2)).2.2 0) =
      some ⟨.page .invalidCredentials, none⟩ ∧
    formAction (readHtml (loginPage ⟨py! "<input>", [], [], [], []⟩ (webLogin (py! "next=\"><form action=\"x") []) (some []))) =
      some (webSite ++ py! "/auth/login?next=\"><form action=\"x") := by
  refine ⟨by decide +kernel, rfl, by decide +kernel, by decide +kernel⟩

/-- The form of the login page is sent with a password. -/
example : Attempts toyEnv (exHooks toyEnv) (fun _ => true) (webGet .login (py! "/auth/login") (py! "next=/x") none)
    (webLogin (py! "next=/x") (py! "correct horse")) :=
  .sent _ _ [] ⟨.page .login, none⟩ .login ⟨[], [], [], [], []⟩ _ .opened (.done _) rfl rfl (C98_login_form _ _ _) (by decide +kernel)

end Psion.Props
