import Verif.OAuth.IdTokenServe
import Verif.OAuth.WorkLemmas
import Verif.Props.TokenSuccess
import Verif.Props.Oidc

/-!
# Properties C81 and C82: legitimate code exchanges with OpenID Connect, and the work of a token request
-/

namespace Psion.Props

open Psion Spec

/-! ## C82 -/

/-- C82, token endpoint: however far a token request gets, its operations on stored codes and tokens are the beginning of one of
the sequences of `TokenWork`. In particular it looks up at most one code or refresh token, which it names, and creates at most one
access token and at most one refresh token, both for the same client, user and scopes. -/
theorem C82_token (env : OEnv) (table : Hooks) (hb : Benign table) (p : Provider) (req : Request) (tr : List Ev)
    (h : Partial (p.token env table req) tr) : ∃ ops, TokenWork req.data ops ∧ storeOps tr <+: ops := token_work hb h

/-- C82, authorization endpoint: an authorization request stores at most one code, for the user of the request, and does nothing
else to stored codes and tokens. -/
theorem C82_authorize (env : OEnv) (table : Hooks) (hb : Benign table) (p : Provider) (req : Request) (tr : List Ev)
    (h : Partial (p.authorize env table req) tr) : ∃ ops, AuthorizeWork req.user ops ∧ storeOps tr <+: ops :=
  authorize_work hb h

/-- The operations of a run of the toy provider. -/
def opNames (l : List Op) : List PyStr := l.map fun
  | .saveCode .. => py! "save" | .getCode .. => py! "get" | .deleteCode .. => py! "delete" | .createAccess .. => py! "access"
  | .createRefresh .. => py! "refresh" | .getRefresh .. => py! "getRefresh" | .revoke .. => py! "revoke" | _ => []

/-- The complete sequences occur. -/
example : opNames (storeOps (toyRun toyUsual toyExchange).1) = [py! "get", py! "access", py! "refresh", py! "delete"] := by
  decide +kernel

example : opNames (storeOps (toyRun toyUsual toyRefreshRequest).1) = [py! "getRefresh", py! "access", py! "refresh"] := by
  decide +kernel

example : opNames (storeOps (toyRun toyUsual toyCredentials).1) = [py! "access"] := by decide +kernel

example : opNames (storeOps (toyRun toyUsual
      (toyPost (by! "grant_type=authorization_code&code=abc&redirect_uri=https://c/cb&code_verifier=b"))).1) =
    [py! "get", py! "delete"] := by decide +kernel

/-! ## C81 -/

theorem hooksWork_oidc {env : OEnv} (hl : FloatLaws env.cr.fe) (hh : HashLengths env.he) {cfg : Config} {tr : List Ev}
    {c : Client} {user : User} {scopes : List PyStr} (ho : OidcWorks env.cr tr user cfg.idTokenLifespan) (hiss : Encodable cfg.issuer)
    (hcid : Encodable c.clientId) (hne : scopes ≠ [])
    (hae : ∀ r, (⟨.createAccess c (.user (some user)) scopes, r⟩ : Ev) ∈ tr → ∃ t, r = .ok t ∧ Encodable t) :
    HooksWork (oidcTable env cfg) tr c user scopes := by
  refine ⟨?_, ?_⟩
  · intro f hf
    cases hf
  · intro f hf token data tr' ⟨access, ha, hget, hsc⟩ hsub
    have : f = oidcTokenResponse env cfg := by
      have hf : f ∈ [oidcTokenResponse env cfg] := hf
      exact List.mem_singleton.mp hf
    subst this
    obtain ⟨t, hr, hte⟩ := hae _ ha
    cases hr
    have hw := wpp_oidcTokenResponse (data := data) (user := user) hl hh ho hiss hcid hsub hget hte (hsc hne)
    exact ⟨fun e hx => wpp_exec_error hx hw (from_answers tr'), fun d hx => wpp_exec_ok hx hw (from_answers tr') d rfl⟩

/-- C81: a legitimate code exchange (the hypotheses of `C76_authorization_code`) with the hook of OpenID Connect, for a code with
a scope that contains `openid`, where the adapter gives a key for signatures and usable user information and the clock runs, is
answered with an access token and an ID token. The ID token is accepted with every key that belongs to the key of the adapter
during its lifespan. It names the issuer, the client, the times and the access token. Its other claims are the information about
the user of the code. -/
theorem C81_exchange (env : OEnv) (hl : FloatLaws env.cr.fe) (hh : HashLengths env.he) (p : Provider)
    (req : Request) (tr : List Ev) (out : ORes Response) (m : AuthMethod) (id : PyStr) (c : Client)
    (code uri verifier : PyStr) (ac : AuthCode) (user : User)
    (hg : .authorizationCode ∈ p.grants) (htype : Dict.get req.data (py! "grant_type") = some (py! "authorization_code"))
    (hi : Identifies req m id c) (hreg : py! "authorization_code" ∈ c.grantTypes)
    (hw : Works tr id c (.user (some user)) (fun l => l = ac.scopes))
    (hiss : Encodable p.cfg.issuer) (hcid : Encodable c.clientId) (ho : OidcWorks env.cr tr user p.cfg.idTokenLifespan)
    (hinfo : ∀ u s info, (⟨.getUserinfo u s, .ok info⟩ : Ev) ∈ tr → (Val.dict info).Wf ∧
      ∀ k ∈ [py! "iss", py! "aud", py! "exp", py! "iat", py! "nbf", py! "at_hash"], Dict.get info k = none)
    (hopen : ∃ s ∈ ac.scopes, MentionsOpenid s)
    (hcode : Dict.get req.data (py! "code") = some code) (huri : Dict.get req.data (py! "redirect_uri") = some uri)
    (hver : Dict.get req.data (py! "code_verifier") = some verifier) (hne : code ≠ [] ∧ uri ≠ [] ∧ verifier ≠ [])
    (hfound : ∀ r, (⟨.getCode (.str code), r⟩ : Ev) ∈ tr → r = .ok (some ac)) (hcl : ac.clientId = c.clientId)
    (hau : ac.redirectUri = uri) (hru : uri ∈ c.redirectUris) (hpk : PkceOk env ac verifier)
    (hnow : ∀ r, (⟨.now, r⟩ : Ev) ∈ tr → ∃ t : Int, r = .ok t ∧ t < ac.expiration)
    (huser : ∀ r, (⟨.findUser ac.userId, r⟩ : Ev) ∈ tr → r = .ok (some user))
    (hdel : ∀ r, (⟨.deleteCode (.str code), r⟩ : Ev) ∈ tr → r = .ok ())
    (h : Exec (p.token env (oidcTable env p.cfg) req) tr out) :
    ∃ r d access tok key alg now ws info, out = .ok r ∧ r.status = 200 ∧ JsonBody env.cr.fe r d ∧
      HandsOutRefresh tr d c (some user) ac.scopes ∧
      (⟨.createAccess c (.user (some user)) ac.scopes, .ok access⟩ : Ev) ∈ tr ∧
      Dict.get d (py! "access_token") = some (.str access) ∧ Dict.get d (py! "id_token") = some (.str tok) ∧
      (⟨.getKeyInfo, .ok (key, alg)⟩ : Ev) ∈ tr ∧ (⟨.stamp, .ok now⟩ : Ev) ∈ tr ∧
      (⟨.getUserinfo user ws, .ok info⟩ : Ev) ∈ tr ∧ Words (joinWith [32] ac.scopes) ws ∧
      GoodIdToken env p.cfg c key alg access tok now info := by
  have hne' : ac.scopes ≠ [] := by
    obtain ⟨s, hs, -⟩ := hopen
    exact List.ne_nil_of_mem hs
  have hb := benign_oidcTable env p.cfg
  obtain ⟨r, d, rfl, ⟨hst, hd, access, ha, hda, -, -⟩, href⟩ := C76_authorization_code env hl (oidcTable env p.cfg) hb p req tr out
    m id c code uri verifier ac user hg htype hi hreg hw (hooksWork_oidc hl hh ho hiss hcid hne' (fun r hr => (hw.access _ r rfl hr).2)) hcode huri hver hne hfound
    hcl hau hru hpk hnow huser hdel h
  obtain ⟨d', code', ac', hd', hc', hf', hiff⟩ := C56_exact env hl p req tr r htype h hst
  have : d' = d := by cases hd'.symm.trans hd; rfl
  subst this
  rw [hcode] at hc'
  cases hc'
  cases hfound _ hf'
  obtain ⟨v, hv⟩ := hiff.mpr hopen
  obtain ⟨d'', access', hd'', ha', H⟩ := C57_partial env hl p req tr r htype hinfo h hst
  have : d'' = d' := by cases hd''.symm.trans hd; rfl
  subst this
  rw [hda] at ha'
  cases ha'
  obtain ⟨tok, c', u', sc', key, alg, now, ws, info, rfl, -, hacc, hkey, hstamp, hinfo, hws, hgood⟩ := H v hv
  obtain ⟨ops, hwork, hpre⟩ := C82_token env _ hb p req tr (exec_partial h)
  obtain ⟨rfl, hou, rfl⟩ := createAccess_unique hwork hpre (mem_storeOps hacc rfl) (mem_storeOps ha rfl)
  cases hou
  exact ⟨r, _, access, tok, key, alg, now, ws, info, rfl, hst, hd, href, ha, hda, hv, hkey, hstamp, hinfo, hws, hgood⟩

/-! ### The hypotheses are satisfiable -/

theorem toySigningKey_signs : SigningKey toyCrypto toySigningKey (py! "HS256") :=
  ⟨⟨.dict toySigningKey.data, rfl⟩,
    ⟨py! "k1", rfl, by decide, encodable_ascii (by decide), Or.inl rfl, Or.inr rfl, Or.inl rfl, Or.inl rfl⟩,
    fun _ msg => ⟨_, .hs256 _ msg⟩⟩

theorem toyInfo_usable : UsableInfo toyInfo where
  wf := ⟨by simp [toyInfo], trivial, trivial⟩
  enc := ⟨encodable_ascii (by decide), encodable_ascii (by decide), trivial⟩
  others := by decide
  text := by
    intro k hk
    simp only [List.mem_cons, List.not_mem_nil, or_false] at hk
    rcases hk with rfl | rfl
    · exact Or.inr ⟨_, rfl⟩
    · exact Or.inl rfl
  maxAge := Or.inl rfl

theorem toyOidc_answers (code : AuthCode) (info : Dict PyStr Val) :
    ∀ ev ∈ (toyOidcRun code info).1, ∃ h', ev.ans = toyOidc code info h' ev.op := by
  intro ev hev
  rcases run_answers _ _ _ ev hev with h | h
  · cases h
  · exact h

theorem toyOidc_works : OidcWorks toyCrypto (toyOidcRun (toyCode [py! "openid", py! "read"]) toyInfo).1
    toyUser toyConfig.idTokenLifespan := by
  have stamps : ∀ t : Int, (⟨.stamp, .ok t⟩ : Ev) ∈ (toyOidcRun (toyCode [py! "openid", py! "read"]) toyInfo).1 → t = 100 := by
    intro t ht
    obtain ⟨h', h⟩ := toyOidc_answers _ _ _ ht
    cases h
    rfl
  refine ⟨?_, ?_, ?_, ?_, ?_⟩
  · intro r hr
    obtain ⟨h', h⟩ := toyOidc_answers _ _ _ hr
    cases h
    exact ⟨_, _, rfl, toySigningKey_signs⟩
  · intro s r hr
    obtain ⟨h', h⟩ := toyOidc_answers _ _ _ hr
    cases h
    exact ⟨_, rfl, toyInfo_usable⟩
  · intro r hr
    obtain ⟨h', h⟩ := toyOidc_answers _ _ _ hr
    cases h
    exact ⟨_, rfl⟩
  · intro r hr
    obtain ⟨h', h⟩ := toyOidc_answers _ _ _ hr
    cases h
    exact ⟨_, rfl⟩
  · intro pre mid post t t' he
    have h1 := stamps t (by rw [he]; simp)
    have h2 := stamps t' (by rw [he]; simp)
    subst h1
    subst h2
    decide

example : ∃ r d tok key alg now info, (toyOidcRun (toyCode [py! "openid", py! "read"]) toyInfo).2 = .ok r ∧
    JsonBody toyFloat r d ∧ Dict.get d (py! "id_token") = some (.str tok) ∧
    GoodIdToken toyEnv toyConfig toyClient key alg (py! "at1") tok now info := by
  have hw : Works (toyOidcRun (toyCode [py! "openid", py! "read"]) toyInfo).1 (py! "c1") toyClient (.user (some toyUser))
      (fun l => l = [py! "openid", py! "read"]) := by
    refine ⟨?_, ?_, ?_⟩
    · intro r hr
      obtain ⟨h', h⟩ := toyOidc_answers _ _ _ hr
      cases h
      rfl
    · intro s r _ hr
      obtain ⟨h', h⟩ := toyOidc_answers _ _ _ hr
      have hs := List.all_eq_true.mp (by decide +kernel :
        (toyOidcRun (toyCode [py! "openid", py! "read"]) toyInfo).1.all encodableScopes = true) _ hr
      simp only [encodableScopes, decide_eq_true_eq] at hs
      cases h
      exact ⟨fun x hx => encodable_ascii (hs x hx), _, rfl, encodable_ascii (by decide)⟩
    · intro u s r _ _ hr
      obtain ⟨h', h⟩ := toyOidc_answers _ _ _ hr
      cases h
      exact ⟨_, rfl, encodable_ascii (by decide)⟩
  obtain ⟨r, d, access, tok, key, alg, now, ws, info, h1, -, h2, -, h3, h4, h5, -, -, -, -, h6⟩ :=
    C81_exchange toyEnv toyFloat_laws toyHash_lengths toyProvider toyExchange _ _ .basic (py! "c1") toyClient
    (py! "abc") (py! "https://c/cb") toyVerifier (toyCode [py! "openid", py! "read"]) toyUser (by decide) (by decide +kernel)
    (toyPost_identifies _) (by decide) hw (encodable_ascii (by decide)) (encodable_ascii (by decide)) toyOidc_works
    (by
      intro u s info hr
      obtain ⟨h', h⟩ := toyOidc_answers _ _ _ hr
      cases h
      exact ⟨toyInfo_usable.wf, toyInfo_usable.others⟩)
    ⟨py! "openid", by decide, [], [], rfl⟩ (by decide +kernel) (by decide +kernel) (by decide +kernel) (by decide)
    (by intro r hr; obtain ⟨h', h⟩ := toyOidc_answers _ _ _ hr; cases h; rfl) rfl rfl (by decide) (Or.inl ⟨rfl, rfl⟩)
    (by intro r hr; obtain ⟨h', h⟩ := toyOidc_answers _ _ _ hr; cases h; exact ⟨_, rfl, by decide⟩)
    (by intro r hr; obtain ⟨h', h⟩ := toyOidc_answers _ _ _ hr; cases h; rfl)
    (by intro r hr; obtain ⟨h', h⟩ := toyOidc_answers _ _ _ hr; cases h; rfl)
    (toyOidcRun_exec _ _)
  have : access = py! "at1" := by
    obtain ⟨h', h⟩ := toyOidc_answers _ _ _ h3
    cases h
    rfl
  subst this
  exact ⟨r, d, tok, key, alg, now, info, h1, h2, h5, h6⟩

end Psion.Props
