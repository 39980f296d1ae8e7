import Verif.OAuth.ServeLemmas
import Verif.Props.TokenSuccess
import Verif.Props.Authorize
import Verif.Props.Consent
import Verif.Props.Revoke

/-!
# Properties C77 and C78: the authorization and revocation endpoints serve legitimate requests
-/

namespace Psion.Props

open Psion Spec

/-- C77, codes: a request of a logged-in user that names a client, one of its redirect URIs, and scopes that are supported and
allowed, and that asks for a code with a code challenge of the right form, is answered with a redirect to this URI with a code and
the state of the request. The code is stored for the client and the user, with the parameters of the request. -/
theorem C77_authorize (env : OEnv) (table : Hooks) (hb : Benign table) (p : Provider) (req : Request) (tr : List Ev)
    (out : ORes Response) (id : PyStr) (c : Client) (user : User) (uri : PyStr) (ws allowed : List PyStr)
    (hg : .authorizationCode ∈ p.grants) (huser : req.user = some user) (hn : Names req id c uri ws) (ha : AsksForCode req)
    (hrt : py! "code" ∈ c.responseTypes) (hp : Permits c allowed) (hws : ∀ s ∈ ws, s ∈ p.cfg.scopes ∧ s ∈ allowed)
    (hh : AuthHooksWork env table tr) (henc : Encodable uri)
    (hst : ∀ s, Dict.get req.data (py! "state") = some s → Encodable s)
    (hfind : ∀ r, (⟨.findClient id, r⟩ : Ev) ∈ tr → r = .ok (some c))
    (hdraw : ∀ r, (⟨.choices64, r⟩ : Ev) ∈ tr → ∃ a, r = .ok a)
    (hsave : ∀ code d r, (⟨.saveCode code d c user, r⟩ : Ev) ∈ tr → r = .ok ())
    (h : Exec (p.authorize env table req) tr out) :
    ∃ r code data params, out = .ok r ∧ (⟨.saveCode code data c user, .ok ()⟩ : Ev) ∈ tr ∧
      Authorizes p req tr c user data ∧ Dict.get data (py! "scopes") = some (strList ws) ∧ RedirectsTo r uri params ∧
      Dict.get params (py! "code") = some (some code) ∧
      (Dict.get params (py! "state")).join = Dict.get req.data (py! "state") := by
  obtain ⟨ch, hc, hc1, hc2⟩ := ha.challenge
  obtain ⟨text, ht, hne, hwords⟩ := hn.scope
  obtain ⟨m, hm, hm'⟩ : ∃ m, Dict.get req.data (py! "code_challenge_method") = some m ∧ (m = py! "plain" ∨ m = py! "S256") := by
    rcases ha.method with h | h
    · exact ⟨_, h, Or.inl rfl⟩
    · exact ⟨_, h, Or.inr rfl⟩
  have hdel : ∀ k, k ≠ py! "response_type" → Dict.get (Dict.del req.data (py! "response_type")) k = Dict.get req.data k :=
    fun k hk => Dict.get_del _ hk
  have hgrant := returns_codeAuthorize (env := env) (cfg := p.cfg) (tr := tr) hb hh (c := c) (user := user)
    (data := Dict.del req.data (py! "response_type")) (by rw [hdel _ (by decide)]; exact hc) hc1 hc2
    (by rw [hdel _ (by decide)]; exact hm) hm' (by rw [hdel _ (by decide)]; exact hn.target)
    (by rw [hdel _ (by decide)]; exact ht) hne hwords hp hws (by rw [hdel _ (by decide)]; exact hst) hdraw hsave
  have hbody : Returns tr (fun r => ∃ code data params, (⟨.saveCode code data c user, .ok ()⟩ : Ev) ∈ tr ∧
      Authorizes p req tr c user data ∧ Dict.get data (py! "scopes") = some (strList ws) ∧ RedirectsTo r uri params ∧
      Dict.get params (py! "code") = some (some code) ∧
      (Dict.get params (py! "state")).join = Dict.get req.data (py! "state")) (p.authorize env table req) := by
    unfold Provider.authorize authorizeEndpoint
    refine returns_catch ?_
    unfold authorizeBody
    dsimp only
    refine returns_known (validateRequest_served hn.target hn.someUri hn.client hn.someClient ha.type (by decide)) ?_
    rw [huser]
    dsimp only
    refine returns_known (param_ok ha.type) (returns_known (validateResponseType_served hg) ?_)
    refine returns_known (param_ok (by rw [hdel _ (by decide)]; exact hn.client))
      (returns_known (param_ok (by rw [hdel _ (by decide)]; exact hn.target)) ?_)
    refine returns_bind (returns_validateClient hfind hn.registered hrt) ?_
    rintro _ ⟨rfl, hfound⟩
    refine returns_bind hgrant ?_
    rintro url ⟨code, valid, response, hv, hsv, hresp, hurl⟩
    have hue := urlencodeVals_ok hurl
    obtain ⟨r, hr⟩ := redirectResponse_ok (encodable_urlencode henc hue) []
    rw [hr]
    refine returns_ret ⟨code, valid, strParams env response, hsv, ?_, ?_, redirect_spec (ok_strParams env hresp.ok) hue hr, ?_, ?_⟩
    · obtain ⟨allow, hal, hmem⟩ := hp ws
      obtain ⟨ch', a1, a2⟩ := hv.challenge
      obtain ⟨m'', b1, b2⟩ := hv.method
      obtain ⟨uri', c1, c2⟩ := hv.uri
      obtain ⟨text', d1, d2⟩ := hv.scopes
      have hst := hv.state
      rw [hdel _ (by decide)] at a1 b1 c1 d1 hst
      rw [ht] at d1
      cases d1
      rw [words_iff.mp hwords] at d2
      refine ⟨huser, hg, ha.type, hrt, ⟨id, hn.client, hfound⟩, ⟨uri', c1, ?_, c2⟩, ⟨ch', a1, a2⟩, ⟨m'', b1, b2⟩,
        ⟨text, ws, allow, ht, hwords, d2, fun s hs => (hws s hs).1, hal, fun s hs => (hmem s).mpr ⟨hs, (hws s hs).2⟩⟩, ?_⟩
      · rw [hn.target] at c1
        cases c1
        exact hn.registered
      · rw [hst]
        cases Dict.get req.data (py! "state") <;> rfl
    · obtain ⟨text', d1, d2⟩ := hv.scopes
      rw [hdel _ (by decide), ht] at d1
      cases d1
      rw [words_iff.mp hwords] at d2
      exact d2
    · rw [get_strParams, get_fullDict_some hresp.code (by simp)]
      rfl
    · have := hresp.state
      rw [hdel _ (by decide)] at this
      exact get_strParams_optVal env hresp.ok this
  obtain ⟨r, hr, code, data, params, h'⟩ := returns_exec hbody h
  exact ⟨r, code, data, params, hr, h'⟩

/-- C77, consent: a request that names a client, one of its redirect URIs and a response type of the client gets the client and
those of the requested scopes that the client is allowed. -/
theorem C77_consent (p : Provider) (req : Request) (tr : List Ev) (out : ORes Consent) (id : PyStr) (c : Client) (uri rt : PyStr)
    (ws allowed : List PyStr) (hn : Names req id c uri ws) (hrt : Dict.get req.data (py! "response_type") = some rt)
    (hrt' : rt ≠ []) (hreg : rt ∈ c.responseTypes) (hp : Permits c allowed)
    (hfind : ∀ r, (⟨.findClient id, r⟩ : Ev) ∈ tr → r = .ok (some c)) (h : Exec (p.consent req) tr out) :
    ∃ scopes, out = .ok (.data c scopes) ∧ ∀ s, s ∈ scopes ↔ s ∈ ws ∧ s ∈ allowed := by
  obtain ⟨text, ht, hne, hwords⟩ := hn.scope
  obtain ⟨scopes, hsc, hmem⟩ := hp ws
  have hbody : Returns tr (fun a => a = .data c scopes) (p.consent req) := by
    unfold Provider.consent consentEndpoint
    refine returns_catch ?_
    unfold consentBody
    dsimp only
    refine returns_known (validateRequest_served hn.target hn.someUri hn.client hn.someClient hrt hrt') ?_
    refine returns_known (param_ok hn.client) (returns_known (param_ok hn.target) (returns_known (param_ok hrt) ?_))
    refine returns_bind (returns_validateClient hfind hn.registered hreg) ?_
    rintro _ ⟨rfl, -⟩
    rw [if_neg (not_blank ht hne), ht]
    refine returns_known (a := scopes) ?_ (returns_ret rfl)
    dsimp only [Option.getD]
    rw [words_iff.mp hwords]
    exact hsc
  obtain ⟨a, ha, rfl⟩ := returns_exec hbody h
  exact ⟨scopes, ha, hmem⟩

/-- C78: a client that identifies itself and sends a token, with no hint or one of the supported hints, gets the answer 200, and
the adapter was told to revoke exactly this token with this hint for this client. -/
theorem C78_revoke (env : OEnv) (p : Provider) (req : Request) (tr : List Ev) (out : ORes (Option Response)) (m : AuthMethod)
    (id : PyStr) (c : Client) (token : PyStr) (hi : Identifies req m id c)
    (htok : Dict.get req.form (py! "token") = some token) (hne : token ≠ [])
    (hhint : ∀ hint, Dict.get req.form (py! "token_type_hint") = some hint →
      hint = [] ∨ hint = py! "access_token" ∨ hint = py! "refresh_token")
    (hfind : ∀ r, (⟨.findClient id, r⟩ : Ev) ∈ tr → r = .ok (some c))
    (hrev : ∀ hint r, (⟨.revoke c token hint, r⟩ : Ev) ∈ tr → r = .ok ())
    (h : Exec (p.revoke env req) tr out) :
    ∃ r, out = .ok (some r) ∧ r.status = 200 ∧ r.body = by! "null" ∧
      (⟨.revoke c token (Dict.get req.form (py! "token_type_hint")), .ok ()⟩ : Ev) ∈ tr := by
  have hbody : Returns tr (fun a => ∃ r, a = some r ∧ r.status = 200 ∧ r.body = by! "null" ∧
      (⟨.revoke c token (Dict.get req.form (py! "token_type_hint")), .ok ()⟩ : Ev) ∈ tr) (p.revoke env req) := by
    unfold Provider.revoke revokeEndpoint
    refine returns_catch ?_
    unfold revokeBody
    refine returns_bind (returns_authenticate hi (Or.inl rfl) hfind) ?_
    rintro _ rfl
    dsimp only
    have hok : HintOk (Dict.get req.form (py! "token_type_hint")) := by
      unfold HintOk
      cases hg : Dict.get req.form (py! "token_type_hint") with
      | none => exact Or.inl rfl
      | some hint =>
        rcases hhint hint hg with rfl | rfl | rfl
        · exact Or.inr (Or.inl rfl)
        · exact Or.inr (Or.inr (Or.inl rfl))
        · exact Or.inr (Or.inr (Or.inr rfl))
    rw [if_neg (not_blank htok hne), if_neg (by rw [(hintOk_iff _).mpr hok]; decide), htok]
    refine returns_await (fun r hr => ⟨(), hrev _ r hr, ?_⟩)
    rw [hrev _ r hr] at hr
    obtain ⟨resp, hj, hbody⟩ := jsonResponse_null env.cr.fe 200 []
    refine returns_known (a := resp) (by rw [hj]; rfl) ?_
    exact returns_ret ⟨resp, rfl, (jsonResponse_status hj).1, hbody, hr⟩
  obtain ⟨a, ha, r, rfl, h'⟩ := returns_exec hbody h
  exact ⟨r, ha, h'⟩

/-! ### The hypotheses are satisfiable -/

theorem toyAuthRequest_names : Names toyAuthRequest (py! "c1") toyClient (py! "https://c/cb") [py! "openid", py! "read"] :=
  ⟨by decide +kernel, by decide, by decide, by decide,
    ⟨_, (by decide +kernel : Dict.get toyAuthRequest.data (py! "scope") = some (py! "openid read")), by decide,
      words_iff.mpr (by decide)⟩, by decide +kernel⟩

theorem toyAuth_answers (orc : List Ev → (o : Op) → ORes o.Ans) (req : Request) :
    ∀ ev ∈ (toyAuth orc req).1, ∃ h', ev.ans = orc h' ev.op := by
  intro ev hev
  rcases run_answers _ _ _ ev hev with h | h
  · cases h
  · exact h

example : ∃ r code data params, (toyAuth toyUsual toyAuthRequest).2 = .ok r ∧
    (⟨.saveCode code data toyClient toyUser, .ok ()⟩ : Ev) ∈ (toyAuth toyUsual toyAuthRequest).1 ∧
    RedirectsTo r (py! "https://c/cb") params ∧ Dict.get params (py! "code") = some (some code) ∧
    (Dict.get params (py! "state")).join = some (py! "x &y") := by
  obtain ⟨r, code, data, params, h1, h2, -, -, h3, h4, h5⟩ := C77_authorize toyEnv Hooks.empty benign_empty toyProvider
    toyAuthRequest _ _ (py! "c1") toyClient toyUser (py! "https://c/cb") [py! "openid", py! "read"]
    [py! "openid", py! "read", py! "write"] (by decide) rfl toyAuthRequest_names
    ⟨by decide +kernel, ⟨toyVerifier, by decide +kernel, by decide, by decide⟩, Or.inl (by decide +kernel)⟩ (by decide)
    toyClient_permits (by decide) ⟨(by intro f hf; cases hf), (by intro f hf; cases hf)⟩ (encodable_ascii (by decide))
    (by
      intro s hs
      rw [(by decide +kernel : Dict.get toyAuthRequest.data (py! "state") = some (py! "x &y"))] at hs
      cases hs
      exact encodable_ascii (by decide))
    (by intro r hr; obtain ⟨h', h⟩ := toyAuth_answers _ _ _ hr; cases h; rfl)
    (by intro r hr; obtain ⟨h', h⟩ := toyAuth_answers _ _ _ hr; cases h; exact ⟨_, rfl⟩)
    (by intro code d r hr; obtain ⟨h', h⟩ := toyAuth_answers _ _ _ hr; cases h; rfl) (toyAuth_exec toyUsual toyAuthRequest)
  exact ⟨r, code, data, params, h1, h2, h3, h4, by rw [h5]; decide +kernel⟩

example : ∃ scopes, (toyConsent toyUsual toyAuthRequest).2 = .ok (.data toyClient scopes) ∧
    ∀ s, s ∈ scopes ↔ s ∈ [py! "openid", py! "read"] ∧ s ∈ [py! "openid", py! "read", py! "write"] :=
  C77_consent toyProvider toyAuthRequest _ _ (py! "c1") toyClient (py! "https://c/cb") (py! "code") _ _ toyAuthRequest_names
    (by decide +kernel) (by decide) (by decide) toyClient_permits
    (by
      intro r hr
      rcases run_answers _ _ _ _ hr with h | ⟨h', h⟩
      · cases h
      · cases h; rfl)
    (exec_run _ _)

example : ∃ r, (toyRevoke toyUsual toyRevocation).2 = .ok (some r) ∧ r.status = 200 ∧ r.body = by! "null" ∧
    (⟨.revoke toyClient (py! "r1") (Dict.get toyRevocation.form (py! "token_type_hint")), .ok ()⟩ : Ev) ∈
      (toyRevoke toyUsual toyRevocation).1 :=
  C78_revoke toyEnv toyProvider toyRevocation _ _ .basic (py! "c1") toyClient (py! "r1") (toyPost_identifies _)
    (by decide +kernel) (by decide)
    (by
      intro hint hh
      rw [(by decide +kernel : Dict.get toyRevocation.form (py! "token_type_hint") = some (py! "refresh_token"))] at hh
      cases hh
      exact Or.inr (Or.inr rfl))
    (by
      intro r hr
      rcases run_answers _ _ _ _ hr with h | ⟨h', h⟩
      · cases h
      · cases h; rfl)
    (by
      intro hint r hr
      rcases run_answers _ _ _ _ hr with h | ⟨h', h⟩
      · cases h
      · cases h; rfl)
    (toyRevoke_exec toyUsual toyRevocation)

end Psion.Props
