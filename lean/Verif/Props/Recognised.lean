import Verif.Spec.Recognised
import Verif.Props.Form
import Verif.Props.Rotation

/-!
# Property C144: parameters that are not recognised, and parameters without a value
-/

namespace Psion.Props

open Psion Spec Example

/-! ## Programs that use only the recognised parameters -/

theorem agree_blank {names : List PyStr} {d d' : Dict PyStr PyStr} (h : Agree names d d') {k : PyStr} (hk : k ∈ names) :
    blank d k = blank d' k := by
  unfold blank
  rw [h k hk]

theorem agree_del {names : List PyStr} {d d' : Dict PyStr PyStr} (h : Agree names d d') (k : PyStr) :
    Agree names (Dict.del d k) (Dict.del d' k) := by
  intro j hj
  by_cases e : j = k
  · subst e
    have : ∀ d : Dict PyStr PyStr, Dict.get (Dict.del d j) j = none := by
      intro d
      induction d with
      | nil => rfl
      | cons x d ih =>
        unfold Dict.del
        rw [List.filter_cons]
        split
        · rename_i hx
          unfold Dict.get
          rw [if_neg (by simpa using hx)]
          exact ih
        · exact ih
    rw [this, this]
  · rw [Dict.get_del _ e, Dict.get_del _ e, h j hj]

theorem same_basic {r r' : Request} (h : SameAuthorization r r') : getBasicAuthorization r.headers = getBasicAuthorization r'.headers := by
  have e : authHeader r.headers = authHeader r'.headers := by
    cases h1 : authHeader r.headers with
    | some a => exact (authHeader_iff.mpr ((h a).mp (authHeader_iff.mp h1))).symm
    | none =>
      cases h2 : authHeader r'.headers with
      | none => rfl
      | some a =>
        rw [authHeader_iff.mpr ((h a).mpr (authHeader_iff.mp h2))] at h1
        cases h1
  unfold getBasicAuthorization
  rw [e]

theorem same_authenticate {r r' : Request} (ha : SameAuthorization r r') (hf : Agree credentialNames r.form r'.form)
    (methods : Option (List PyStr)) : authenticate r methods = authenticate r' methods := by
  have h1 := hf (py! "client_id") (by decide)
  have h2 := hf (py! "client_secret") (by decide)
  have hrun : ∀ m : AuthMethod, m.run r = m.run r' := by
    intro m
    cases m
    · simp only [AuthMethod.run, authBasic, same_basic ha]
    · simp only [AuthMethod.run, authPost, h1, h2]
    · simp only [AuthMethod.run, authNone, h1, h2]
  unfold authenticate
  generalize AuthMethod.all = l
  induction l with
  | nil => rfl
  | cons m l ih => simp only [authLoop, hrun, ih]

theorem same_authorizationParams {d d' : Dict PyStr PyStr} (h : Agree authorizationNames d d') :
    authorizationParams d = authorizationParams d' := by
  have h1 := h (py! "state") (by decide)
  have h2 := h (py! "code_challenge") (by decide)
  have h3 := h (py! "code_challenge_method") (by decide)
  have h4 := h (py! "scope") (by decide)
  have h5 := h (py! "redirect_uri") (by decide)
  have h6 := agree_blank h (k := py! "code_challenge") (by decide)
  have h7 := agree_blank h (k := py! "scope") (by decide)
  unfold authorizationParams
  simp only [h1, h2, h3, h4, h5, h6, h7]

theorem same_codeAuthorize (env : OEnv) (cfg : Config) {hooks : Hooks} (hh : Attentive hooks) {d d' : Dict PyStr PyStr}
    (h : Agree authorizationNames d d') (client : Client) (user : User) :
    codeAuthorize env cfg hooks d client user = codeAuthorize env cfg hooks d' client user := by
  have e : validateAuthorizationRequest hooks d = validateAuthorizationRequest hooks d' := by
    unfold validateAuthorizationRequest
    rw [same_authorizationParams h]
    have : hooks.authorizationRequest.map (fun hk (_ : Dict PyStr Val) => hk d) =
        hooks.authorizationRequest.map (fun hk (_ : Dict PyStr Val) => hk d') :=
      List.map_congr_left (fun hk hm => by rw [hh.authorization hk hm d d' h])
    rw [this]
  unfold codeAuthorize
  rw [e]

theorem same_codeToken (env : OEnv) (cfg : Config) {hooks : Hooks} (hh : Attentive hooks) {d d' : Dict PyStr PyStr}
    (h : Agree tokenNames d d') (client : Client) : codeToken env cfg hooks d client = codeToken env cfg hooks d' client := by
  have h1 := h (py! "code") (by decide)
  have e : validateCodeTokenRequest hooks d = validateCodeTokenRequest hooks d' := by
    unfold validateCodeTokenRequest codeTokenParams
    rw [h1, h (py! "redirect_uri") (by decide), h (py! "code_verifier") (by decide), agree_blank h (k := py! "code") (by decide),
      agree_blank h (k := py! "redirect_uri") (by decide), agree_blank h (k := py! "code_verifier") (by decide)]
    have : hooks.tokenRequest.map (fun hk (_ : Dict PyStr Val) => hk d) = hooks.tokenRequest.map (fun hk (_ : Dict PyStr Val) => hk d') :=
      List.map_congr_left (fun hk hm => by rw [hh.token hk hm d d' h])
    rw [this]
  unfold codeToken
  rw [e, h1]

theorem same_token (env : OEnv) (cfg : Config) {hooks : Hooks} (hh : Attentive hooks) {d d' : Dict PyStr PyStr}
    (h : Agree tokenNames d d') (g : GrantClass) (client : Client) :
    (grantOf env cfg hooks g).token d client = (grantOf env cfg hooks g).token d' client := by
  cases g with
  | authorizationCode => exact same_codeToken env cfg hh h client
  | clientCredentials =>
    show credentialsToken env cfg d client = credentialsToken env cfg d' client
    unfold credentialsToken scopeParam
    rw [agree_blank h (by decide), h (py! "scope") (by decide)]
  | refreshToken =>
    show refreshToken env cfg d client = refreshToken env cfg d' client
    have h1 := agree_blank h (k := py! "refresh_token") (by decide)
    have h2 := agree_blank h (k := py! "scope") (by decide)
    unfold refreshToken
    simp only [h1, h2, h (py! "scope") (by decide)]
    rw [h (py! "refresh_token") (by decide)]
    split
    · rfl
    · refine congrArg _ (funext fun found => ?_)
      cases found <;> rfl

theorem same_authorize (env : OEnv) (cfg : Config) {hooks : Hooks} (hh : Attentive hooks) {d d' : Dict PyStr PyStr}
    (h : Agree authorizationNames d d') (g : GrantClass) (client : Client) (user : User) :
    (grantOf env cfg hooks g).authorize d client user = (grantOf env cfg hooks g).authorize d' client user := by
  cases g with
  | authorizationCode => exact same_codeAuthorize env cfg hh h client user
  | clientCredentials => rfl
  | refreshToken => rfl

/-! ## The endpoints -/

/-- C144: a token request is processed in the same way, with the same operations and the same answer, whatever other parameters it
contains, whatever headers besides `Authorization`, and whatever its method is; unless it contains no parameters at all. -/
theorem C144_token_partial (env : OEnv) (p : Provider) {hooks : Hooks} (hh : Attentive hooks) (r r' : Request)
    (hd : Agree tokenNames r.data r'.data) (hf : Agree credentialNames r.form r'.form) (ha : SameAuthorization r r')
    (he : r.data = [] ↔ r'.data = []) : p.token env hooks r = p.token env hooks r' := by
  have hg : validateGrantType (p.objects env hooks) (Dict.get r.data (py! "grant_type")) =
      validateGrantType (p.objects env hooks) (Dict.get r'.data (py! "grant_type")) := by
    rw [hd _ (by decide)]
  have key : tokenBody env (p.objects env hooks) r = tokenBody env (p.objects env hooks) r' := by
    unfold tokenBody
    dsimp only
    by_cases hn : r.data = []
    · rw [if_pos hn, if_pos (he.mp hn)]
    · rw [if_neg hn, if_neg (fun h => hn (he.mpr h)), hg]
      cases hv : validateGrantType (p.objects env hooks) (Dict.get r'.data (py! "grant_type")) with
      | error e => rfl
      | ok grant =>
        have hmem : grant ∈ p.objects env hooks := by
          unfold validateGrantType at hv
          split at hv
          · split at hv
            · rename_i g hfind
              cases hv
              exact List.mem_of_find?_eq_some hfind
            · cases hv
          · cases hv
        obtain ⟨g, -, rfl⟩ := List.mem_map.mp hmem
        show P.bind (authenticate r _) _ = P.bind (authenticate r' _) _
        rw [same_authenticate ha hf]
        congr 1
        funext client
        rw [same_token env p.cfg hh (agree_del hd _)]
  unfold Provider.token tokenEndpoint
  rw [key]

/-- C144: an authorization request is processed in the same way, with the same operations and the same answer, whatever other parameters
and whatever headers it contains; unless it contains no parameters at all. -/
theorem C144_authorize_partial (env : OEnv) (p : Provider) {hooks : Hooks} (hh : Attentive hooks) (r r' : Request)
    (hd : Agree authorizationNames r.data r'.data) (hu : r.user = r'.user) (he : r.data = [] ↔ r'.data = []) :
    p.authorize env hooks r = p.authorize env hooks r' := by
  have hv : validateRequest r.data = validateRequest r'.data := by
    unfold validateRequest
    rw [agree_blank hd (by decide), agree_blank hd (k := py! "client_id") (by decide), agree_blank hd (k := py! "response_type") (by decide)]
    simp only [he]
  have hdel := agree_del hd (py! "response_type")
  have key : authorizeBody (p.objects env hooks) r = authorizeBody (p.objects env hooks) r' := by
    unfold authorizeBody
    dsimp only
    rw [hv, hu]
    congr 1
    funext _
    cases r'.user with
    | none => rfl
    | some user =>
      dsimp only
      have e1 : param r.data (py! "response_type") = param r'.data (py! "response_type") := by
        unfold param Dict.getItem
        rw [hd _ (by decide)]
      have e2 : ∀ k ∈ authorizationNames, param (Dict.del r.data (py! "response_type")) k = param (Dict.del r'.data (py! "response_type")) k := by
        intro k hk
        unfold param Dict.getItem
        rw [hdel k hk]
      rw [e1, hdel (py! "state") (by decide), e2 (py! "client_id") (by decide), e2 (py! "redirect_uri") (by decide)]
      congr 1
      funext responseType
      cases hv : validateResponseType (p.objects env hooks) responseType (Dict.get (Dict.del r'.data (py! "response_type")) (py! "state")) with
      | error e => rfl
      | ok grant =>
        have hmem : grant ∈ p.objects env hooks := by
          unfold validateResponseType at hv
          split at hv
          · rename_i g hfind
            cases hv
            exact List.mem_of_find?_eq_some hfind
          · cases hv
        obtain ⟨g, -, rfl⟩ := List.mem_map.mp hmem
        have lift_ok : ∀ {α β : Type} (x : α) (f : α → P β), P.bind (P.lift (.ok x)) f = f x := fun _ _ => rfl
        rw [lift_ok, lift_ok]
        simp only [same_authorize env p.cfg hh hdel]
  have herr : ∀ e, authorizationError p.cfg r.data e = authorizationError p.cfg r'.data e := by
    intro e
    unfold authorizationError param Dict.getItem
    rw [hd _ (by decide)]
  unfold Provider.authorize authorizeEndpoint
  rw [key]
  simp only [herr]

/-- C144: the same for the data of the consent page. -/
theorem C144_consent_partial (p : Provider) (r r' : Request) (hd : Agree authorizationNames r.data r'.data)
    (he : r.data = [] ↔ r'.data = []) : p.consent r = p.consent r' := by
  have hv : validateRequest r.data = validateRequest r'.data := by
    unfold validateRequest
    rw [agree_blank hd (by decide), agree_blank hd (k := py! "client_id") (by decide), agree_blank hd (k := py! "response_type") (by decide)]
    simp only [he]
  have e1 : ∀ k ∈ authorizationNames, param r.data k = param r'.data k := by
    intro k hk
    unfold param Dict.getItem
    rw [hd k hk]
  have herr : ∀ e, authorizationError p.cfg r.data e = authorizationError p.cfg r'.data e := by
    intro e
    unfold authorizationError
    rw [e1 _ (by decide)]
  have key : consentBody r = consentBody r' := by
    unfold consentBody
    dsimp only
    rw [hv, e1 (py! "client_id") (by decide), e1 (py! "redirect_uri") (by decide), e1 (py! "response_type") (by decide),
      hd (py! "state") (by decide), hd (py! "scope") (by decide), agree_blank hd (k := py! "scope") (by decide)]
  unfold Provider.consent consentEndpoint
  rw [key]
  simp only [herr]

/-- C144: a revocation is processed in the same way, with the same operations and the same answer, whatever other parameters it
contains, whatever headers besides `Authorization`, and whatever its method is. -/
theorem C144_revoke (env : OEnv) (p : Provider) (r r' : Request) (hf : Agree (revocationNames ++ credentialNames) r.form r'.form)
    (ha : SameAuthorization r r') : p.revoke env r = p.revoke env r' := by
  have hf' : Agree credentialNames r.form r'.form := fun k hk => hf k (List.mem_append_right _ hk)
  have key : revokeBody env r = revokeBody env r' := by
    unfold revokeBody
    dsimp only
    rw [same_authenticate ha hf', agree_blank hf (k := py! "token") (by decide), agree_blank hf (k := py! "token_type_hint") (by decide),
      hf (py! "token") (by decide), hf (py! "token_type_hint") (by decide)]
  unfold Provider.revoke revokeEndpoint
  rw [key]

/-- The hook for OpenID Connect uses only recognised parameters. -/
theorem oidc_attentive (env : OEnv) : Attentive (exHooks env) := by
  have e1 : (exHooks env).authorizationRequest = [oidcAuthorizationRequest] := rfl
  have e2 : (exHooks env).tokenRequest = [] := rfl
  constructor
  · rw [e1]
    intro h hh d d' hd
    cases List.mem_singleton.mp hh
    unfold oidcAuthorizationRequest
    rw [agree_blank hd (by decide), hd (py! "nonce") (by decide)]
  · rw [e2]
    nofun

/-! ## The requests as they are written -/

theorem agree_text {names : List PyStr} {q q' : PyStr} (h : AgreeText names q q') : Agree names (urldecode q) (urldecode q') := by
  intro k hk
  refine Option.ext (fun v => ?_)
  rw [get_urldecode, get_urldecode]
  exact h k hk v

theorem dict_nil {d : Dict PyStr PyStr} : d = [] ↔ ∀ k v, Dict.get d k ≠ some v := by
  constructor
  · rintro rfl k v h
    cases h
  · intro h
    cases d with
    | nil => rfl
    | cons x d =>
      refine absurd ?_ (h x.1 x.2)
      unfold Dict.get
      rw [if_pos rfl]

theorem text_of {text : PyStr} {b : Bytes} (h : Utf8Text text b) : toStringB b = text := by
  unfold toStringB
  rw [utf8Decode_encode (utf8Text_iff.mpr h)]

/-- The requests of the library for two web requests. -/
theorem requests_agree {req req' : WebRequest} {q q' text text' : PyStr} (hm : req.method = req'.method)
    (hh : req.headers = req'.headers) (hb : OneBracket req.url ↔ OneBracket req'.url)
    (hq : QueryOf req.url q) (hq' : QueryOf req'.url q') (ht : Utf8Text text req.body) (ht' : Utf8Text text' req'.body) (user : Option User) :
    (∃ e, createRequest req user = .error e ∧ createRequest req' user = .error e) ∨
    ∃ r r', createRequest req user = .ok r ∧ createRequest req' user = .ok r' ∧ r.user = r'.user ∧ SameAuthorization r r' ∧
      r.query = urldecode q ∧ r'.query = urldecode q' ∧ r.form = urldecode text ∧ r'.form = urldecode text' := by
  have hr : urlRefused req.url = urlRefused req'.url := by
    rw [Bool.eq_iff_iff, urlRefused_iff, urlRefused_iff]
    exact hb
  unfold createRequest Request.init
  rw [hm, hr, hh]
  split
  · split
    · exact .inl ⟨_, rfl, rfl⟩
    · refine .inr ⟨_, _, rfl, rfl, rfl, fun _ => Iff.rfl, ?_, ?_, ?_, ?_⟩
      · rw [queryOf_iff.mp hq]
      · rw [queryOf_iff.mp hq']
      · show urldecode (toStringB req.body) = _
        rw [text_of ht]
      · show urldecode (toStringB req'.body) = _
        rw [text_of ht']
  · exact .inl ⟨_, rfl, rfl⟩

theorem data_agree {names : List PyStr} {r r' : Request} (h1 : Agree names r.query r'.query) (h2 : Agree names r.form r'.form) :
    Agree names r.data r'.data := by
  intro k hk
  rw [C60_form_overrides, C60_form_overrides, h1 k hk, h2 k hk]

theorem data_nil {r : Request} {q text : PyStr} (h1 : r.query = urldecode q) (h2 : r.form = urldecode text) :
    r.data = [] ↔ ¬ SomeParameter q text := by
  rw [dict_nil]
  constructor
  · rintro h ⟨k, v, hp⟩
    have hk := h k
    rw [C60_form_overrides, h1, h2] at hk
    cases hf : Dict.get (urldecode text) k with
    | some w =>
      rw [hf] at hk
      exact hk w rfl
    | none =>
      rw [hf] at hk
      rcases hp with hp | hp
      · exact hk v ((get_urldecode _ _ _).mpr hp)
      · rw [(get_urldecode _ _ _).mpr hp] at hf
        cases hf
  · intro h k v hv
    rw [C60_form_overrides, h1, h2] at hv
    cases hf : Dict.get (urldecode text) k with
    | some w => exact h ⟨k, w, .inr ((get_urldecode _ _ _).mp hf)⟩
    | none =>
      rw [hf] at hv
      exact h ⟨k, v, .inl ((get_urldecode _ _ _).mp hv)⟩

/-- C144, for the example application: if two requests differ only in the URL and in the body, and both give the recognised parameters
the same values, then they are processed in the same way, with the same operations and the same reply; unless one of them gives no
parameter a value. (A request for an authorization without user leads to the login, with the whole URL, so that nothing gets lost.) -/
theorem C144_web_partial (env : OEnv) (emailOk : PyStr → Bool) (req req' : WebRequest) (q q' text text' : PyStr)
    (hroute : req.route = req'.route) (hm : req.method = req'.method) (hh : req.headers = req'.headers) (hc : req.cookie = req'.cookie)
    (hb : OneBracket req.url ↔ OneBracket req'.url)
    (hq : QueryOf req.url q) (hq' : QueryOf req'.url q') (ht : Utf8Text text req.body) (ht' : Utf8Text text' req'.body) :
    (req.route = .token → AgreeText tokenNames q q' → AgreeText (tokenNames ++ credentialNames) text text' →
      (SomeParameter q text ↔ SomeParameter q' text') →
      app env (exHooks env) emailOk req = app env (exHooks env) emailOk req') ∧
    (req.route = .revoke → AgreeText (revocationNames ++ credentialNames) text text' →
      app env (exHooks env) emailOk req = app env (exHooks env) emailOk req') ∧
    (req.route = .authorize → AgreeText authorizationNames q q' → AgreeText authorizationNames text text' →
      (SomeParameter q text ↔ SomeParameter q' text') →
      ∀ u, view env (exHooks env) emailOk req (some u) = view env (exHooks env) emailOk req' (some u)) := by
  have happ : (∀ user, view env (exHooks env) emailOk req user = view env (exHooks env) emailOk req' user) →
      app env (exHooks env) emailOk req = app env (exHooks env) emailOk req' := by
    intro h
    unfold app
    rw [hc]
    cases req'.cookie with
    | none => exact h none
    | some c => simp only [h]
  have hpost : isPost req = isPost req' := by unfold isPost; rw [hm]
  have hget : isGet req = isGet req' := by unfold isGet; rw [hm]
  refine ⟨?_, ?_, ?_⟩
  · intro hr h1 h2 h3
    refine happ (fun user => ?_)
    unfold view
    rw [hr, ← hroute, hr]
    dsimp only
    rw [hpost]
    unfold tokenPost
    rcases requests_agree hm hh hb hq hq' ht ht' user with ⟨e, e1, e2⟩ | ⟨r, r', e1, e2, -, ha, g1, g2, g3, g4⟩
    · rw [e1, e2]
    · rw [e1, e2]
      have hf : Agree (tokenNames ++ credentialNames) r.form r'.form := by rw [g3, g4]; exact agree_text h2
      have := C144_token_partial env exProvider (oidc_attentive env) r r'
        (data_agree (by rw [g1, g2]; exact agree_text h1) (fun k hk => hf k (List.mem_append_left _ hk)))
        (fun k hk => hf k (List.mem_append_right _ hk)) ha (by rw [data_nil g1 g3, data_nil g2 g4, h3])
      show (if _ then (WP.lib (exProvider.token env (exHooks env) r)).bind _ else _) =
        (if _ then (WP.lib (exProvider.token env (exHooks env) r')).bind _ else _)
      rw [this]
  · intro hr h2
    refine happ (fun user => ?_)
    unfold view
    rw [hr, ← hroute, hr]
    dsimp only
    rw [hpost]
    unfold revokePost
    rcases requests_agree hm hh hb hq hq' ht ht' user with ⟨e, e1, e2⟩ | ⟨r, r', e1, e2, -, ha, g1, g2, g3, g4⟩
    · rw [e1, e2]
    · rw [e1, e2]
      have := C144_revoke env exProvider r r' (by rw [g3, g4]; exact agree_text h2) ha
      show (if _ then (WP.lib (exProvider.revoke env r)).bind _ else _) = (if _ then (WP.lib (exProvider.revoke env r')).bind _ else _)
      rw [this]
  · intro hr h1 h2 h3 u
    unfold view
    rw [hr, ← hroute, hr]
    dsimp only
    rw [hget]
    unfold authorizeGet
    dsimp only
    rcases requests_agree hm hh hb hq hq' ht ht' (some u) with ⟨e, e1, e2⟩ | ⟨r, r', e1, e2, hu, -, g1, g2, g3, g4⟩
    · rw [e1, e2]
    · rw [e1, e2]
      have := C144_authorize_partial env exProvider (oidc_attentive env) r r'
        (data_agree (by rw [g1, g2]; exact agree_text h1) (by rw [g3, g4]; exact agree_text h2)) hu
        (by rw [data_nil g1 g3, data_nil g2 g4, h3])
      show (if _ then (WP.lib (exProvider.authorize env (exHooks env) r)).bind _ else _) =
        (if _ then (WP.lib (exProvider.authorize env (exHooks env) r')).bind _ else _)
      rw [this]

/-! ## Parameters without a value -/

/-- A piece of a query string that gives none of the parameters a value can be left out. -/
theorem C144_piece (names : List PyStr) (p q q' : PyStr) (l r : List PyStr) (hq : Pieces q (l ++ p :: r)) (hq' : Pieces q' (l ++ r))
    (hp : ∀ k ∈ names, ∀ v, ¬ Field p k v) : AgreeText names q q' := by
  intro k hk v
  rw [← get_urldecode, ← get_urldecode]
  unfold urldecode parseQsl Dict.ofPairs
  rw [get_update_last, get_update_last, pieces_iff.mp hq, pieces_iff.mp hq']
  rw [List.filterMap_append, List.filterMap_append, List.reverse_append, List.reverse_append, List.find?_append, List.find?_append,
    List.filterMap_cons]
  cases hpp : parsePair p with
  | none => rfl
  | some kv =>
    have : kv.1 ≠ k := fun e => hp k hk kv.2 (field_iff.mp (by rw [hpp, ← e]))
    dsimp only
    rw [List.reverse_cons, List.find?_append]
    simp [this]

/-- C144: a parameter without a value, written `name=` or `name`, counts as omitted, wherever it is in a query string or a form. -/
theorem C144_omitted (names : List PyStr) (name p q q' : PyStr) (l r : List PyStr) (h61 : 61 ∉ name) (hp : p = name ∨ p = name ++ [61])
    (hq : Pieces q (l ++ p :: r)) (hq' : Pieces q' (l ++ r)) : AgreeText names q q' := by
  refine C144_piece names p q q' l r hq hq' ?_
  rintro k - v ⟨a, b, e, ha, hb, -⟩
  rcases hp with rfl | rfl
  · rw [e] at h61
    exact h61 (List.mem_append_right _ List.mem_cons_self)
  · rcases List.append_eq_append_iff.mp e with ⟨c, rfl, h⟩ | ⟨c, rfl, h⟩
    · cases c with
      | nil =>
        cases h
        exact hb rfl
      | cons x c => exact absurd (congrArg List.length h) (by simp)
    · cases c with
      | nil =>
        cases h
        exact hb rfl
      | cons x c =>
        cases h
        exact h61 (List.mem_append_right _ List.mem_cons_self)

/-- The hypotheses are satisfiable: the parameter `state` without a value in `scope=a&state=&nonce=b` is omitted. -/
example : AgreeText authorizationNames (py! "scope=a&state=&nonce=b") (py! "scope=a&nonce=b") :=
  C144_omitted authorizationNames (py! "state") (py! "state=") _ _ [py! "scope=a"] [py! "nonce=b"] (by decide) (.inr rfl)
    (pieces_iff.mpr (by decide +kernel)) (pieces_iff.mpr (by decide +kernel))

/-! ## The hypotheses are satisfiable -/

theorem agreeText_of {names : List PyStr} {q q' : PyStr} (h : names.map (Dict.get (urldecode q)) = names.map (Dict.get (urldecode q'))) :
    AgreeText names q q' := by
  intro k hk v
  rw [← get_urldecode, ← get_urldecode, List.map_inj_left.mp h k hk]

/-- The exchange of a code, with further parameters. -/
def chattyExchange : WebRequest :=
  { webExchange with
    url := webExchange.url ++ py! "?audience=x&scope=&ui_locales=de"
    query := py! "audience=x&scope=&ui_locales=de"
    body := webExchange.body ++ by! "&resource=y&refresh_token=&prompt" }

/-- C144 applies to the exchange with further parameters: it is served like the one without. -/
example (env : OEnv) : app env (exHooks env) (fun _ => true) chattyExchange = app env (exHooks env) (fun _ => true) webExchange := by
  have h8 : ∀ {b : Bytes}, utf8Encode (toStringB b) = .ok b → Utf8Text (toStringB b) b := fun h => utf8Text_iff.mp h
  refine (C144_web_partial env (fun _ => true) chattyExchange webExchange _ _ _ _ rfl rfl rfl rfl ?_ (queryOf_iff.mpr rfl) (queryOf_iff.mpr rfl)
    (h8 (by decide +kernel)) (h8 (by decide +kernel))).1 rfl (agreeText_of (by decide +kernel)) (agreeText_of (by decide +kernel)) ?_
  · rw [← urlRefused_iff, ← urlRefused_iff]
    decide +kernel
  · refine ⟨fun _ => ⟨py! "grant_type", py! "authorization_code", .inr ((get_urldecode _ _ _).mp (by decide +kernel))⟩,
      fun _ => ⟨py! "grant_type", py! "authorization_code", .inr ((get_urldecode _ _ _).mp (by decide +kernel))⟩⟩

/-- The revocation, too. -/
example (env : OEnv) (body : Bytes) (hb : body = by! "token=abc&foo=bar") :
    exProvider.revoke env ⟨py! "POST", [(py! "q", py! "1")], [(py! "cookie", py! "x")], some body, none⟩ =
      exProvider.revoke env ⟨py! "POST", [], [], some (by! "token=abc"), none⟩ := by
  subst hb
  refine C144_revoke env exProvider _ _ ?_ ?_
  · intro k hk
    have : (revocationNames ++ credentialNames).map (Dict.get (urldecode (toStringB (by! "token=abc&foo=bar")))) =
        (revocationNames ++ credentialNames).map (Dict.get (urldecode (toStringB (by! "token=abc")))) := by decide +kernel
    exact List.map_inj_left.mp this k hk
  · intro auth
    rw [← authHeader_iff, ← authHeader_iff]
    rfl

/-! ## The exception -/

/-- Requests to the token endpoint without any parameters, and with one that is not recognised. -/
def bareRequest : Request := ⟨py! "POST", [], [], some [], none⟩
def oddRequest : Request := ⟨py! "POST", [], [], some (by! "foo=bar"), none⟩

def bodyOf (p : P Response) : Bytes :=
  match p with
  | .done (.ok r) => r.body
  | _ => []

/-- C144 is false for requests without any recognised parameter: if there is a parameter that is not recognised, the error has another
description. -/
theorem C144_refuted : Agree tokenNames bareRequest.data oddRequest.data ∧ Agree credentialNames bareRequest.form oddRequest.form ∧
    SameAuthorization bareRequest oddRequest ∧
    bodyOf (exProvider.token toyEnv (exHooks toyEnv) bareRequest) =
      by! "{\"error\": \"invalid_request\", \"error_description\": \"Missing request parameters.\"}" ∧
    bodyOf (exProvider.token toyEnv (exHooks toyEnv) oddRequest) =
      by! "{\"error\": \"invalid_request\", \"error_description\": \"Invalid parameter \\\"grant_type\\\".\"}" := by
  refine ⟨?_, ?_, fun _ => Iff.rfl, by decide +kernel, by decide +kernel⟩
  · have : tokenNames.map (Dict.get bareRequest.data) = tokenNames.map (Dict.get oddRequest.data) := by decide +kernel
    exact fun k hk => List.map_inj_left.mp this k hk
  · have : credentialNames.map (Dict.get bareRequest.form) = credentialNames.map (Dict.get oddRequest.form) := by decide +kernel
    exact fun k hk => List.map_inj_left.mp this k hk

end Psion.Props
