import Verif.Props.Recognised
import Verif.Props.WebLogin
import Verif.Props.WebAnswer
import Verif.Props.ExampleOidc

/-!
# C146: what a client can demand about the login of the user

OpenID Connect Core 1.0, section 3.1.2.1: with `prompt=none` no page may be shown, with `prompt=login` the user should be authenticated anew; with
`max_age` the user must be authenticated anew if this was longer ago, and the ID token must say when it was (`auth_time`).
-/

namespace Psion.Props

open Psion Spec Example

variable {env : OEnv} {table : Hooks} {emailOk : PyStr → Bool}

/-- C146, `prompt=none` (partial): a user who is recognised is not shown a page; the answer is a redirect by the library, to a registered URI
of the client or without a code. Missing: a user who is not recognised, see `C146_none_refuted`. -/
theorem C146_none_partial (hb : Benign table) (req : WebRequest) (tr : List WEv) (sv : Served) (sid uid : PyStr) (u : User)
    (hr : req.route = .authorize) (hm : req.method = py! "GET") (hl : ∀ kv ∈ req.headers, asciiLower kv.1 = kv.1)
    (hu : (⟨.session sid uid, .ok (some (some u))⟩ : WEv) ∈ tr) (hx : WExec (app env table emailOk req) tr (.ok sv)) :
    ∃ user r response url params, UserOf req tr user ∧ ArrivesAs req user r ∧ RedirectsTo response url params ∧ PassedOn response sv.reply ∧
      (RegisteredUri r (libOf tr) url ∨ Dict.get params (py! "code") = none) := by
  rcases C74_partial req tr (.ok sv) (Or.inl ⟨hr, hm, sid, uid, some u, hu⟩) hl hx with
    ⟨user, r, lib, h1, h2, h3, h4⟩ | ⟨-, -, h⟩ | ⟨_, _, -, -, h⟩ | ⟨c, -, h, -⟩
  · rw [hr] at h3
    rcases h4 with ⟨e, -, h⟩ | ⟨-, h⟩ | ⟨response, rfl, ⟨reply, hp, h⟩ | ⟨-, e, h⟩⟩
    · cases h
    · cases h
    · cases h
      cases h3 with
      | authorized _ _ _ hx' =>
        obtain ⟨url, params, g1, g2⟩ := C46_partial env table hb exProvider r (libOf tr) response hx'
        exact ⟨user, r, response, url, params, h1, h2, g1, hp, g2.imp id And.left⟩
    · cases h
  · cases h
  · cases h
  · rw [h] at hu
    simp at hu

/-- An authorization request with `prompt=none`. -/
def silentAuthorize : WebRequest :=
  { webAuthorize with
    url := webAuthorize.url ++ py! "&prompt=none"
    query := webAuthorize.query ++ py! "&prompt=none" }

/-- A login, and the authorization with `prompt=none`. -/
def silentReqs : Nat → WebRequest
  | 0 => webLogin [] (py! "correct horse")
  | _ => silentAuthorize

example : (ofWeb 1 (webSim silentReqs (exTurn 0 4 2 ++ exTurn 1 4 0)).1).any (recognises webCookie.userId) = true ∧
    webStatus ((webSim silentReqs (exTurn 0 4 2 ++ exTurn 1 4 0)).2.2 1) = some 303 ∧
    ∀ kv ∈ silentAuthorize.headers, asciiLower kv.1 = kv.1 := by decide +kernel

/-- C146 is violated for a user who is not recognised: whatever the client demands, the answer is a redirect to the login page, not to the
client with the error `login_required`. -/
theorem C146_none_refuted (req : WebRequest) (tr : List WEv) (sv : Served) (hr : req.route = .authorize)
    (hm : req.method = py! "GET") (hx : WExec (app env table emailOk req) tr (.ok sv))
    (hn : ∀ sid uid x, (⟨.session sid uid, .ok (some x)⟩ : WEv) ∉ tr)
    (hs1 : 63 ∉ req.site) (hs2 : 35 ∉ req.site) (hu : req.url ≠ []) :
    ∃ base loc, quotePlus locSafe (req.site ++ py! "/auth/login") = .ok base ∧ (∃ q, loc = base ++ py! "?" ++ q) ∧
      sv.reply = .response 303 [(py! "location", loc)] [] := by
  obtain ⟨-, base, loc, h1, h2, h3, -⟩ := C72_login_detour req tr sv hr hm hx hn hs1 hs2 hu
  exact ⟨base, loc, h1, h2, h3⟩

/-- With `prompt=none` and nobody logged in: the user is sent to the login page. -/
example : ∃ v, Parameter silentAuthorize.query (py! "prompt") (py! "none") ∧
    webServed ((webSim (fun _ => { silentAuthorize with cookie := none }) []).2.2 0) =
      some ⟨.response 303 [(py! "location", webSite ++ py! "/auth/login?next=" ++ v)] [], none⟩ := by
  refine ⟨py! "http%3A%2F%2Flocalhost%3A8000%2Fconnect%2Fauthorize%3Fresponse_type%3Dcode%26client_id%3Dc1%26redirect_uri%3Dhttps%3A%2F%2Fc%2Fcb%26scope%3Dopenid%26state%3Ds%26code_challenge%3D" ++
    toyVerifier ++ py! "%26code_challenge_method%3Dplain%26nonce%3Dn%26prompt%3Dnone", (get_urldecode _ _ _).mp ?_, ?_⟩ <;>
  decide +kernel

/-- C146 is violated for `prompt=login`, `max_age` and every other parameter that is not one of `authorizationNames`: for a user who is logged
in, the authorization request is served exactly as if this demand had not been made. The request names its response type (or gives another
recognised parameter), so that it is not taken for an empty one. -/
theorem C146_login_refuted (env : OEnv) (emailOk : PyStr → Bool) (req req' : WebRequest) (q q' text p k v k0 v0 : PyStr) (l r : List PyStr)
    (hroute : req.route = .authorize) (hroute' : req'.route = .authorize) (hm : req.method = req'.method)
    (hh : req.headers = req'.headers) (hc : req.cookie = req'.cookie) (hbody : req.body = req'.body)
    (hb : OneBracket req.url ↔ OneBracket req'.url) (hq : QueryOf req.url q) (hq' : QueryOf req'.url q') (ht : Utf8Text text req.body)
    (hl : Pieces q (l ++ p :: r)) (hl' : Pieces q' (l ++ r)) (hp : Field p k v) (hk : k ∉ authorizationNames)
    (h0 : k0 ∈ authorizationNames) (hv0 : Parameter q' k0 v0) (u : User) :
    view env (exHooks env) emailOk req (some u) = view env (exHooks env) emailOk req' (some u) := by
  have hag : AgreeText authorizationNames q q' := by
    refine C144_piece _ p q q' l r hl hl' ?_
    intro k' hk' v' hf
    have e := (field_iff.mpr hf).symm.trans (field_iff.mpr hp)
    cases e
    exact hk hk'
  refine (C144_web_partial env emailOk req req' q q' text text (hroute.trans hroute'.symm) hm hh hc hb hq hq' ht (hbody ▸ ht)).2.2 hroute hag
    (fun _ _ _ => Iff.rfl) ⟨fun _ => ⟨k0, v0, .inl hv0⟩, fun _ => ⟨k0, v0, .inl ((hag k0 h0 v0).mpr hv0)⟩⟩ u

/-- The parameters with which a client can demand something about the login are among these. -/
example : ∀ k ∈ [py! "prompt", py! "max_age", py! "id_token_hint", py! "login_hint", py! "acr_values", py! "claims"],
    k ∉ authorizationNames := by decide

/-- The authorization request with a demand to log in anew. -/
def anewAuthorize : WebRequest :=
  { webAuthorize with
    url := webAuthorize.url ++ py! "&prompt=login"
    query := webAuthorize.query ++ py! "&prompt=login" }

/-- It is served like the one without the demand. -/
example (env : OEnv) (u : User) : view env (exHooks env) (fun _ => true) anewAuthorize (some u) =
    view env (exHooks env) (fun _ => true) webAuthorize (some u) := by
  have h8 : ∀ {b : Bytes}, utf8Encode (toStringB b) = .ok b → Utf8Text (toStringB b) b := fun h => utf8Text_iff.mp h
  refine C146_login_refuted env (fun _ => true) anewAuthorize webAuthorize _ _ _ (py! "prompt=login") (py! "prompt") (py! "login")
    (py! "response_type") (py! "code") (splitOn 38 webAuthorize.query) [] rfl rfl rfl rfl rfl rfl ?_ (queryOf_iff.mpr rfl) (queryOf_iff.mpr rfl)
    (h8 (by decide +kernel)) (pieces_iff.mpr (by decide +kernel)) (pieces_iff.mpr (by decide +kernel)) (field_iff.mp (by decide +kernel))
    (by decide) (by decide) ((get_urldecode _ _ _).mp (by decide +kernel)) u
  rw [← urlRefused_iff, ← urlRefused_iff]
  decide +kernel

/-- C146 is violated for the time of the login: no ID token of the example application says when the user was authenticated, whatever
authorization it belongs to. -/
theorem C146_auth_time_refuted (env : OEnv) (hl : FloatLaws env.cr.fe) (calls : Nat → Call) (s s' : Store) (h0 : s.codes = [])
    (h1 : s.refresh = []) (h : List Step) (hist : History env (exHooks env) calls h) (hrun : ExRun env s h s') (i : Nat)
    (req : Request) (r : Response) (hcall : calls i = .token exProvider req)
    (hg : Dict.get req.data (py! "grant_type") = some (py! "authorization_code"))
    (hx : Exec (exProvider.token env (exHooks env) req) (ofRequest i h) (.ok r)) (hs : r.status = 200) :
    ∃ d, JsonBody env.cr.fe r d ∧ ∀ v, Dict.get d (py! "id_token") = some v →
      ∃ tok now, v = .str tok ∧ ∀ n1 n2, now ≤ n1 → n1 < now + 36000 → now ≤ n2 → n2 < now + 36000 →
        ∃ t, Jwt.decodeStr env.cr n1 n2 tok exKey (some (py! "HS256")) true .none = .ok t ∧ dget t.claims (py! "auth_time") = .none := by
  obtain ⟨d, access, hd, -, hid⟩ := C83_identity env hl calls s s' h0 h1 h hist hrun i req r hcall hg hx hs
  refine ⟨d, hd, fun v hv => ?_⟩
  obtain ⟨tok, c, j, p, req', code, data, c', u, scopes, row, now, a, b, m, rfl, -, -, -, -, -, -, -, -, -, -, bytes, -, sha, -, hsay⟩ := hid v hv
  refine ⟨tok, now, rfl, fun n1 n2 g1 g2 g3 g4 => ?_⟩
  obtain ⟨t, ht, -, -, -, -, -, -, hdis⟩ := hsay n1 n2 g1 g2 g3 g4
  refine ⟨t, ht, ?_⟩
  rcases hdis (py! "auth_time") (by decide) with ⟨e, -⟩ | ⟨-, scope, -, claims, hc, hm⟩ | ⟨-, -, e⟩
  · exact absurd e (by decide)
  · exfalso
    simp only [scopeClaims, List.mem_cons, List.not_mem_nil, or_false, Prod.mk.injEq] at hc
    rcases hc with ⟨-, rfl⟩ | ⟨-, rfl⟩ | ⟨-, rfl⟩ | ⟨-, rfl⟩ <;> simp at hm
  · exact e

/-- An authorization with `max_age`, and the exchange of its code. -/
def agedCalls : Nat → Call
  | 0 => .authorize exProvider (exAuthorize [(py! "nonce", py! "n"), (py! "max_age", py! "60")])
  | _ => .token exProvider (exExchange exCode)

/-- The response contains an ID token, though the authorization request had a `max_age`. -/
example : ∃ h s' r d tok, History toyEnv (exHooks toyEnv) agedCalls h ∧ ExRun toyEnv exStore h s' ∧
    Exec (exProvider.token toyEnv (exHooks toyEnv) (exExchange exCode)) (ofRequest 1 h) (.ok r) ∧ r.status = 200 ∧
    JsonBody toyFloat r d ∧ Dict.get d (py! "id_token") = some (.str tok) := by
  have hsome : (memberOf (py! "id_token") (outcome ((exSim agedCalls (exTurn 0 3 0 ++ exTurn 1 13 1)).2.2 1))).isSome = true := by
    decide +kernel
  obtain ⟨t, ht⟩ := Option.isSome_iff_exists.mp hsome
  obtain ⟨r, d, h1, h2, h3, h4⟩ := memberOf_some ht
  exact ⟨_, _, r, d, t, exSim_history _ _ (fun i => by cases i <;> rfl), exSim_run _ _, sim_outcome h1, h2, h3, h4⟩

end Psion.Props
