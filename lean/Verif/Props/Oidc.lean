import Verif.OAuth.IdTokenLemmas
import Verif.Props.TokenAnswers
import Verif.Props.Jwt
import Verif.Props.Authorize

/-!
# Properties C56 – C58: OpenID Connect
-/

namespace Psion.Props

open Psion Spec

/-- The table after `provider.add_hook(AuthorizationCodeGrant, AuthorizationCodeFlow)` in a process without other hooks, for a
provider with one authorization code grant. -/
def oidcTable (env : OEnv) (cfg : Config) : Hooks := Hooks.empty.add (oidcHook env cfg)

example : addHook Hooks.empty toyProvider (some .authorizationCode) (oidcHook toyEnv) = oidcTable toyEnv toyConfig := rfl

theorem benign_oidcTable (env : OEnv) (cfg : Config) : Benign (oidcTable env cfg) := benign_add_oidc benign_empty env cfg

/-- The key of the toy provider. -/
def toySigningKey : Jwk :=
  ⟨[(py! "kty", .str (py! "oct")), (py! "k", .str (py! "c2VjcmV0")), (py! "kid", .str (py! "k1"))], .oct (by! "secret")⟩

example : Jwk.init toyCrypto (.dict toySigningKey.data) = .ok toySigningKey := by rfl

/-- The toy adapter with a key, and this user information. -/
def toyOidc (code : AuthCode) (userinfo : Dict PyStr Val) : List Ev → (o : Op) → ORes o.Ans
  | _, .getKeyInfo => .ok (toySigningKey, py! "HS256")
  | _, .getUserinfo .. => .ok userinfo
  | h, o => toyAdapter toyClient code (toyRefresh []) h o

/-- A code exchange with the hook. -/
def toyOidcRun (code : AuthCode) (userinfo : Dict PyStr Val) : List Ev × ORes Response :=
  Prog.run (toyOidc code userinfo) [] (toyProvider.token toyEnv (oidcTable toyEnv toyProvider.cfg) toyExchange)

theorem toyOidcRun_exec (code : AuthCode) (userinfo : Dict PyStr Val) :
    Exec (toyProvider.token toyEnv (oidcTable toyEnv toyProvider.cfg) toyExchange) (toyOidcRun code userinfo).1
      (toyOidcRun code userinfo).2 := exec_run _ _

/-- The user information of the toy adapter. -/
def toyInfo : Dict PyStr Val := [(py! "sub", .str (py! "u1"))]

/-- The ID token in a response. -/
def idTokenOf : ORes Response → Option PyStr
  | .ok r =>
    match jsonLoads toyFloat r.body with
    | .ok (.dict d) =>
      match Dict.get d (py! "id_token") with
      | some (.str t) => if r.status = 200 then some t else none
      | _ => none
    | _ => none
  | _ => none

theorem idTokenOf_some {out : ORes Response} {t : PyStr} (h : idTokenOf out = some t) :
    ∃ r d, out = .ok r ∧ r.status = 200 ∧ JsonBody toyFloat r d ∧ Dict.get d (py! "id_token") = some (.str t) := by
  unfold idTokenOf at h
  split at h
  · rename_i r
    split at h
    · rename_i d hd
      split at h
      · rename_i t' ht
        split at h
        · rename_i hs
          cases h
          exact ⟨r, d, rfl, hs, hd, ht⟩
        · cases h
      · cases h
    · cases h
  · cases h

theorem idTokenOf_isSome {out : ORes Response} (h : (idTokenOf out).isSome = true) :
    ∃ t r d, out = .ok r ∧ r.status = 200 ∧ JsonBody toyFloat r d ∧ Dict.get d (py! "id_token") = some (.str t) := by
  obtain ⟨t, ht⟩ := Option.isSome_iff_exists.mp h
  exact ⟨t, idTokenOf_some ht⟩

/-- A text claim of a token that is decoded with the key of the toy provider at the time 300. -/
def claimOf (name : PyStr) (t : PyStr) : Option PyStr :=
  match Jwt.decodeStr toyCrypto 300 300 t toySigningKey (some (py! "HS256")) true .none with
  | .ok j => match dget j.claims name with
    | .str s => some s
    | _ => none
  | _ => none

theorem claimOf_some {name t s : PyStr} (h : claimOf name t = some s) :
    ∃ j, Jwt.decodeStr toyCrypto 300 300 t toySigningKey (some (py! "HS256")) true .none = .ok j ∧
      dget j.claims name = .str s := by
  unfold claimOf at h
  split at h
  · rename_i j hj
    split at h
    · rename_i s' hs
      cases h
      exact ⟨j, hj, hs⟩
    · cases h
  · cases h

/-! ## C56 -/

/-- The text contains `openid`. -/
def MentionsOpenid (s : PyStr) : Prop := ∃ a b, s = a ++ py! "openid" ++ b

/-- What a successful code exchange with the hook did. -/
theorem oidc_exchange {env : OEnv} (hl : FloatLaws env.cr.fe) {p : Provider} {req : Request} {tr : List Ev} {r : Response}
    (hg : Dict.get req.data (py! "grant_type") = some (py! "authorization_code"))
    (h : Exec (p.token env (oidcTable env p.cfg) req) tr (.ok r)) (hs : r.status = 200) :
    ∃ d code ac c user access, JsonBody env.cr.fe r d ∧ Dict.get req.data (py! "code") = some code ∧
      FoundCode tr (.str code) ac ∧ Authenticated req none tr c ∧ FoundUser tr ac.userId (some user) ∧ ac.scopes ≠ [] ∧
      (⟨.createAccess c (.user (some user)) ac.scopes, .ok access⟩ : Ev) ∈ tr ∧
      Dict.get d (py! "access_token") = some (.str access) ∧
      ((py! "refresh_token" ∈ c.grantTypes ∧ ∃ t, Dict.get d (py! "refresh_token") = some (.str t) ∧
          (⟨.createRefresh c (some user) ac.scopes, .ok t⟩ : Ev) ∈ tr) ∨
        py! "refresh_token" ∉ c.grantTypes ∧ Dict.get d (py! "refresh_token") = none) ∧
      ((∃ s ∈ ac.scopes, MentionsOpenid s) ∧ (∃ tok info userinfo now token,
          Dict.get token (py! "access_token") = some (.str access) ∧
          Dict.get token (py! "scope") = some (.str (joinWith [32] ac.scopes)) ∧
          IdTokenMade env p.cfg token c user tr info userinfo now tok ∧
          Dict.get d (py! "id_token") = some (.str tok)) ∨
        (¬ ∃ s ∈ ac.scopes, MentionsOpenid s) ∧ Dict.get d (py! "id_token") = none) := by
  rcases token_response (benign_oidcTable env p.cfg) h with ⟨token, ⟨g, c, hu, hd⟩, hj⟩ | ⟨x, -, hj⟩
  · have ht := hu.type
    rw [hg] at ht
    have : GrantClass.authorizationCode = g := grantName_inj (Option.some.inj ht)
    subst this
    obtain ⟨code, ac, user, access, refresh, valid, tr', h1, h2, h3, h4, h5, h6, h7, h8, h9⟩ := hd.1.done
    rw [del_code] at h1
    have h8' : Exec (P.bind (oidcTokenResponse env p.cfg (createToken p.cfg access refresh (some ac.scopes)) valid c user)
        fun r => P.ret (updateHook (createToken p.cfg access refresh (some ac.scopes)) r)) tr' (.ok token) := h8
    obtain ⟨t1, t2, out, rfl, hx, hy⟩ := exec_pbind_ok h8'
    obtain ⟨rfl, hy⟩ := exec_done hy
    cases hy
    obtain ⟨g1, g2, g3, g4, g5⟩ := createToken_get p.cfg access refresh (some ac.scopes)
    obtain ⟨scope, hsc, hcase⟩ := exec_oidcTokenResponse hx
    rw [g5] at hsc
    have hne : ac.scopes ≠ [] := by
      intro h0
      rw [h0] at hsc
      cases hsc
    have hscope : scope = .str (joinWith [32] ac.scopes) := by
      match hac : ac.scopes, hne with
      | s :: l, _ => rw [hac] at hsc; cases hsc; rfl
    have g5' := hscope ▸ g5.trans hsc
    have hiff : isSubstring (py! "openid") (joinWith [32] ac.scopes) = true ↔ ∃ s ∈ ac.scopes, MentionsOpenid s := by
      rw [isSubstring_iff, substring_join (by decide) (by decide)]
      rfl
    have hwf := wf_createToken p.cfg access refresh (some ac.scopes)
    have hid : Dict.get (createToken p.cfg access refresh (some ac.scopes)) (py! "id_token") = none := by
      rw [Dict.get_eq_none_iff]
      intro hm
      obtain ⟨kv, hkv, he⟩ := List.mem_map.mp hm
      have hkv := (List.mem_filter.mp hkv).1
      simp only [List.mem_cons, List.not_mem_nil, or_false] at hkv
      rcases hkv with rfl | rfl | rfl | rfl | rfl <;> simp at he
    refine ⟨_, code, ac, c, user, access, jsonResponse_body hl ?_ hj, h1, h2, hu.auth, h3, hne, h5, ?_, ?_, ?_⟩
    · rcases hcase with ⟨-, tok, info, userinfo, now, -, rfl⟩ | ⟨-, rfl⟩
      · refine ⟨Dict.ok_update hwf.1 _, ?_⟩
        rw [wfD_iff]
        intro kv hkv
        rcases Dict.mem_update hkv with hkv | hkv
        · exact wfD_iff.mp hwf.2 kv hkv
        · rw [List.mem_singleton.mp hkv]; trivial
      · exact hwf
    · rcases hcase with ⟨-, tok, info, userinfo, now, -, rfl⟩ | ⟨-, rfl⟩
      · show Dict.get (Dict.set _ _ _) _ = _
        rw [Dict.get_set_ne _ _ (by simp)]
        exact g1
      · exact g1
    · have hget' : Dict.get (updateHook (createToken p.cfg access refresh (some ac.scopes)) out) (py! "refresh_token") =
          refresh.map .str := by
        rcases hcase with ⟨-, tok, info, userinfo, now, -, rfl⟩ | ⟨-, rfl⟩
        · show Dict.get (Dict.set _ _ _) _ = _
          rw [Dict.get_set_ne _ _ (by simp)]
          exact g4
        · exact g4
      by_cases hgt : py! "refresh_token" ∈ c.grantTypes
      · obtain ⟨t, rfl, hm⟩ := h6 hgt
        exact Or.inl ⟨hgt, t, hget', hm⟩
      · exact Or.inr ⟨hgt, by rw [hget', h7 hgt]; rfl⟩
    · rcases hcase with ⟨ho, tok, info, userinfo, now, hm, rfl⟩ | ⟨ho, rfl⟩
      · left
        rw [hscope] at ho
        refine ⟨hiff.mp (by simpa [containsText] using ho), tok, info, userinfo, now, _, g1, g5',
          ?_, Dict.get_set_same _ _ _⟩
        have hsub : t1 ⊆ tr := fun ev hev => h9.subset (List.mem_append_left _ hev)
        obtain ⟨m1, ⟨sc, m2, m3⟩, m4, m5⟩ := hm
        exact ⟨hsub m1, ⟨sc, m2, hsub m3⟩, hsub m4, m5⟩
      · right
        rw [hscope] at ho
        refine ⟨?_, hid⟩
        rw [← hiff]
        have : isSubstring (py! "openid") (joinWith [32] ac.scopes) = false := by simpa [containsText] using ho
        rw [this]
        decide
  · rw [(jsonResponse_status hj).1] at hs
    cases hs

/-- C56, exactly: the response to a code exchange contains an ID token if and only if one of the granted scopes *contains* the
text `openid`. -/
theorem C56_exact (env : OEnv) (hl : FloatLaws env.cr.fe) (p : Provider) (req : Request) (tr : List Ev) (r : Response)
    (hg : Dict.get req.data (py! "grant_type") = some (py! "authorization_code"))
    (h : Exec (p.token env (oidcTable env p.cfg) req) tr (.ok r)) (hs : r.status = 200) :
    ∃ d code ac, JsonBody env.cr.fe r d ∧ Dict.get req.data (py! "code") = some code ∧ FoundCode tr (.str code) ac ∧
      ((∃ v, Dict.get d (py! "id_token") = some v) ↔ ∃ s ∈ ac.scopes, MentionsOpenid s) := by
  obtain ⟨d, code, ac, c, user, access, h1, h2, h3, -, -, -, -, -, -, hcase⟩ := oidc_exchange hl hg h hs
  refine ⟨d, code, ac, h1, h2, h3, ?_⟩
  rcases hcase with ⟨ho, tok, -, -, -, -, -, -, -, ht⟩ | ⟨ho, ht⟩
  · exact ⟨fun _ => ho, fun _ => ⟨_, ht⟩⟩
  · refine ⟨?_, fun h => absurd h ho⟩
    rintro ⟨v, hv⟩
    rw [ht] at hv
    cases hv

/-- C56 where no scope merely contains the text `openid`: the response contains an ID token if and only if the scope `openid` was
granted. Missing are other scopes that contain this text (`C56_refuted_name`) and the empty list of scopes
(`C56_refuted_empty`). -/
theorem C56_partial (env : OEnv) (hl : FloatLaws env.cr.fe) (p : Provider) (req : Request) (tr : List Ev) (r : Response)
    (hg : Dict.get req.data (py! "grant_type") = some (py! "authorization_code"))
    (hsc : ∀ code ac, FoundCode tr code ac → ∀ s ∈ ac.scopes, MentionsOpenid s → s = py! "openid")
    (h : Exec (p.token env (oidcTable env p.cfg) req) tr (.ok r)) (hs : r.status = 200) :
    ∃ d code ac, JsonBody env.cr.fe r d ∧ Dict.get req.data (py! "code") = some code ∧ FoundCode tr (.str code) ac ∧
      ((∃ v, Dict.get d (py! "id_token") = some v) ↔ py! "openid" ∈ ac.scopes) := by
  obtain ⟨d, code, ac, h1, h2, h3, h4⟩ := C56_exact env hl p req tr r hg h hs
  refine ⟨d, code, ac, h1, h2, h3, h4.trans ⟨?_, fun h => ⟨_, h, [], [], rfl⟩⟩⟩
  rintro ⟨s, hs, ho⟩
  exact hsc _ _ h3 s hs ho ▸ hs

/-- The hypotheses of `C56_exact` are satisfiable, with and without an ID token. -/
example : ∃ r d tok, (toyOidcRun (toyCode [py! "openid", py! "read"]) toyInfo).2 = .ok r ∧ r.status = 200 ∧
    JsonBody toyFloat r d ∧ Dict.get d (py! "id_token") = some (.str tok) := by
  obtain ⟨t, r, d, h⟩ := idTokenOf_isSome (out := (toyOidcRun (toyCode [py! "openid", py! "read"]) toyInfo).2)
    (by decide +kernel)
  exact ⟨r, d, t, h⟩

example : isResponse 200
    (by! "{\"access_token\": \"at1\", \"token_type\": \"Bearer\", \"expires_in\": 3600, \"refresh_token\": \"rt1\", \"scope\": \"read\"}")
    (toyOidcRun (toyCode [py! "read"]) toyInfo).2 = true := by decide +kernel

example : Dict.get toyExchange.data (py! "grant_type") = some (py! "authorization_code") := by decide +kernel

/-- C56 is false: a scope that merely contains the text `openid` brings an ID token, too. -/
theorem C56_refuted_name : ¬ ∀ (env : OEnv) (p : Provider) (req : Request) (tr : List Ev) (r : Response)
    (d : Dict PyStr Val) (v : Val), FloatLaws env.cr.fe →
    Dict.get req.data (py! "grant_type") = some (py! "authorization_code") →
    Exec (p.token env (oidcTable env p.cfg) req) tr (.ok r) → r.status = 200 → JsonBody env.cr.fe r d →
    Dict.get d (py! "id_token") = some v →
    ∃ code ac, FoundCode tr code ac ∧ py! "openid" ∈ ac.scopes := by
  intro H
  obtain ⟨t, r, d, h1, h2, h3, h4⟩ := idTokenOf_isSome (out := (toyOidcRun (toyCode [py! "openid2"]) toyInfo).2)
    (by decide +kernel)
  have hx := toyOidcRun_exec (toyCode [py! "openid2"]) toyInfo
  rw [h1] at hx
  obtain ⟨code, ac, hf, hm⟩ := H toyEnv toyProvider toyExchange _ r d _ toyFloat_laws (by decide +kernel) hx h2 h3 h4
  rcases run_answers _ _ _ _ hf with h | ⟨h', ha⟩
  · cases h
  · simp only [toyOidc, toyAdapter] at ha
    split at ha
    · cases ha
      revert hm
      decide
    · cases ha

/-- C56 is false: for a code without scopes the hook raises a `KeyError`, which nobody handles. -/
theorem C56_refuted_empty : ¬ ∀ (env : OEnv) (p : Provider) (req : Request) (tr : List Ev) (out : ORes Response),
    (∀ o e, (⟨o, .error e⟩ : Ev) ∉ tr) →
    Exec (p.token env (oidcTable env p.cfg) req) tr out → ∃ r, out = .ok r := by
  intro H
  have hno : ∀ o e, (⟨o, .error e⟩ : Ev) ∉ (toyOidcRun (toyCode []) toyInfo).1 := by
    intro o e he
    rcases run_answers _ _ _ _ he with h | ⟨h', ha⟩
    · cases h
    · cases o <;> simp only [toyOidc, toyAdapter] at ha <;> first | cases ha | (split at ha <;> cases ha)
  obtain ⟨r, hr⟩ := H toyEnv toyProvider toyExchange _ _ hno (toyOidcRun_exec (toyCode []) toyInfo)
  have : escapes .keyErr (toyOidcRun (toyCode []) toyInfo).2 = true := by decide +kernel
  rw [hr] at this
  cases this

/-- C56, no failure: for a token with scopes of which none contains `openid` the hook does nothing at all. -/
theorem C56_without_openid (env : OEnv) (cfg : Config) (access : PyStr) (refresh : Option PyStr) (scopes : List PyStr)
    (data : Dict PyStr Val) (client : Client) (user : User) (hne : scopes ≠ [])
    (ho : ∀ s ∈ scopes, ¬ MentionsOpenid s) :
    oidcTokenResponse env cfg (createToken cfg access refresh (some scopes)) data client user = P.ret none := by
  obtain ⟨g1, g2, g3, g4, g5⟩ := createToken_get cfg access refresh (some scopes)
  have hsub : isSubstring (py! "openid") (joinWith [32] scopes) = false := by
    rw [Bool.eq_false_iff, ne_eq, isSubstring_iff, substring_join (by decide) (by decide)]
    rintro ⟨s, hs, h⟩
    exact ho s hs h
  match scopes, hne with
  | s :: l, _ =>
    unfold oidcTokenResponse
    rw [item_ok g5]
    have hc : containsText (py! "openid") (.str (joinWith [32] (s :: l))) = .ok false := by rw [containsText, hsub]
    simp only [P.bind, P.lift, Prog.bind, hc, liftRes]
    rfl

example : toyOidc (toyCode [py! "read"]) toyInfo [] .getKeyInfo = .ok (toySigningKey, py! "HS256") ∧
    ∀ s ∈ [py! "read", py! "open id"], ¬ MentionsOpenid s := by
  refine ⟨rfl, ?_⟩
  intro s hs ho
  have := isSubstring_iff.mpr ho
  revert this
  simp only [List.mem_cons, List.not_mem_nil, or_false] at hs
  rcases hs with rfl | rfl <;> decide

/-! ## C57 -/

/-- The claims the provider is responsible for. -/
def providerClaims : List PyStr :=
  [py! "iss", py! "aud", py! "exp", py! "iat", py! "nbf", py! "at_hash"]

/-- `hash` is the base64url text of the left half of the hash of the access token. -/
def IsAtHash (he : HashEnv) (access alg hash : PyStr) : Prop :=
  ∃ f bytes, he.sha (alg.drop 2) = some f ∧ utf8Encode access = .ok bytes ∧
    hash = asciiStr (b64urlEncode ((f bytes).take ((f bytes).length / 2)))

/-- What an ID token is good for: with a key that belongs to the signing key it is accepted at all times of its lifespan, and
names issuer, audience, times and the access token. All other claims are those of the user information. -/
def GoodIdToken (env : OEnv) (cfg : Config) (client : Client) (key : Jwk) (alg access tok : PyStr) (now : Int)
    (info : Dict PyStr Val) : Prop :=
  ∃ hash, IsAtHash env.he access alg hash ∧
    ∀ vk, GenuinePair env.cr key.mat vk.mat → SameRestrictions key vk →
      ∀ n1 n2, now ≤ n1 → n1 < now + cfg.idTokenLifespan → now ≤ n2 → n2 < now + cfg.idTokenLifespan →
      ∃ t, Jwt.decodeStr env.cr n1 n2 tok vk (some alg) true .none = .ok t ∧
        dget t.claims (py! "iss") = .str cfg.issuer ∧ dget t.claims (py! "aud") = .str client.clientId ∧
        dget t.claims (py! "exp") = .int (now + cfg.idTokenLifespan) ∧ dget t.claims (py! "iat") = .int now ∧
        dget t.claims (py! "at_hash") = .str hash ∧ ∀ k, k ∉ providerClaims → dget t.claims k = dget info k

/-- The claims of an ID token. -/
theorem idToken_decodes {env : OEnv} (hl : FloatLaws env.cr.fe) {cfg : Config} {token : Dict PyStr Val} {client : Client}
    {user : User} {h : List Ev} {key : Jwk} {alg access : PyStr} {userinfo : Dict PyStr Val} {now : Int} {tok : PyStr}
    (hm : IdTokenMade env cfg token client user h (key, alg) userinfo now tok)
    (ha : Dict.get token (py! "access_token") = some (.str access)) (hw : (Val.dict userinfo).Wf) :
    ∃ hash, IsAtHash env.he access alg hash ∧
      (∀ vk, GenuinePair env.cr key.mat vk.mat → SameRestrictions key vk →
        ∀ n1 n2, InWindow n1 (idTokenClaims cfg client now hash userinfo) →
          InWindow n2 (idTokenClaims cfg client now hash userinfo) →
        (∃ k, dget (idTokenClaims cfg client now hash userinfo) k ≠ .none) →
        ∃ t, Jwt.decodeStr env.cr n1 n2 tok vk (some alg) true .none = .ok t) ∧
      ∀ vk, GenuinePair env.cr key.mat vk.mat → SameRestrictions key vk →
        ∀ n1 n2 opts t, Jwt.decodeStr env.cr n1 n2 tok vk (some alg) true opts = .ok t →
          ∀ k, dget t.claims k = ((Dict.get userinfo k).or (Dict.get
            [(py! "iss", .str cfg.issuer), (py! "aud", .str client.clientId), (py! "exp", .int (now + cfg.idTokenLifespan)),
              (py! "iat", .int now), (py! "at_hash", .str hash)] k)).getD .none := by
  obtain ⟨hash, now1, now2, claims, kid, jwt, seed, h1, h2, h3, h4, h5⟩ := hm.made
  have hat : IsAtHash env.he access alg hash := by
    unfold atHash at h1
    rw [ha] at h1
    dsimp only at h1
    unfold createHalfHash at h1
    split at h1
    · cases h1
    · rename_i f hf
      split at h1
      · cases h1
      · rename_i b hb
        cases h1
        exact ⟨f, b, hf, hb, toStringB_ascii (b64url_ascii _)⟩
  have hok : Dict.Ok userinfo := hw.1
  have hok0 : Dict.Ok (idTokenClaims cfg client now hash userinfo) := by
    refine Dict.ok_update ?_ _
    simp [Dict.Ok, Dict.keys]
  have hclaims : claims = fullDict (idTokenClaims cfg client now hash userinfo) := by
    unfold idTokenInit at h2
    split at h2
    · cases h2
    · split at h2
      · cases h2
      · split at h2
        · cases h2
        · split at h2
          · cases h2
          · obtain ⟨c, hc, -, hr, -⟩ := claimsInit_ok.mp h2
            cases hc
            exact hr
  have hg : ∀ k, dget claims k = dget (idTokenClaims cfg client now hash userinfo) k := by
    intro k; rw [hclaims]; exact dget_fullDict hok0 k
  have hwin : ∀ n, InWindow n (idTokenClaims cfg client now hash userinfo) → InWindow n claims := by
    intro n hn
    exact ⟨by rw [hg]; exact hn.exp, by rw [hg]; exact hn.iat, by rw [hg]; exact hn.nbf⟩
  have hjc : jwt.claims = claims := by
    obtain ⟨-, hc, -⟩ := jwtInit_ok.mp h4
    obtain ⟨c', e, -, hc', -⟩ := claimsInit_ok.mp hc
    cases e
    rw [hc', hclaims, fullDict_idem]
  have hwc : (Val.dict jwt.claims).Wf := by
    rw [hjc, hclaims]
    refine ⟨ok_fullDict hok0, wfD_iff.mpr ?_⟩
    intro kv hkv
    rcases Dict.mem_update (List.mem_filter.mp hkv).1 with hkv | hkv
    · simp only [List.mem_cons, List.not_mem_nil, or_false] at hkv
      rcases hkv with rfl | rfl | rfl | rfl | rfl <;> trivial
    · exact wfD_iff.mp hw.2 kv hkv
  have hhd : ∃ c s, kid = .str (c :: s) ∧ jwt.header.data = fullDict
      [(py! "alg", .str alg), (py! "typ", .str (py! "JWT")), (py! "kid", kid)] := by
    obtain ⟨hh, -⟩ := jwtInit_ok.mp h4
    obtain ⟨hd, e, h6, -, -, -, h7, -⟩ := headerInit_ok.mp hh
    cases e
    rcases validateText_ok.mp h7 with h7 | ⟨c, s, h7⟩
    · cases h7
    · cases h7
      exact ⟨c, s, rfl, h6⟩
  obtain ⟨c, s, rfl, hhd⟩ := hhd
  have hwh : (Val.dict jwt.header.data).Wf := by
    rw [hhd]
    refine ⟨ok_fullDict (by simp [Dict.Ok, Dict.keys]), wfD_iff.mpr ?_⟩
    intro kv hkv
    have hkv := (List.mem_filter.mp hkv).1
    simp only [List.mem_cons, List.not_mem_nil, or_false] at hkv
    rcases hkv with rfl | rfl | rfl <;> trivial
  refine ⟨hash, hat, ?_, ?_⟩
  · intro vk hpair hsame n1 n2 hn1 hn2 hsome
    obtain ⟨t, ht, -⟩ := C28_jwt_roundtrip_partial env.cr hl now2 claims (hclaims ▸ ok_fullDict hok0) _ jwt h4
      (by obtain ⟨k, hk⟩ := hsome; exact ⟨k, by rw [hg]; exact hk⟩) hwc hwh key vk seed tok h5 hpair hsame (some alg)
      (Or.inr ⟨alg, rfl, by rw [hhd]; rfl⟩) n1 n2 (hwin n1 hn1) (hwin n2 hn2)
    exact ⟨t, ht⟩
  · intro vk hpair hsame n1 n2 opts t ht k
    obtain ⟨hc, -⟩ := jwt_decoded env.cr hl now2 (.dict claims) _ jwt h4 hwc hwh key vk seed tok h5 hpair hsame (some alg)
      (Or.inr ⟨alg, rfl, by rw [hhd]; rfl⟩) n1 n2 opts t ht
    rw [hc, hjc, hg]
    unfold dget idTokenClaims
    rw [Dict.get_update_ok hok]

/-- C57 where the adapter leaves the claims of the provider alone: the ID token in a response is accepted with every key that
belongs to the key of the adapter, during `id_token_lifespan` seconds from the time of its creation, and names the issuer, the
authenticated client for which the access token was created, the times and the access token of the same response. The other
claims are those that the adapter gave for the user of the access token. Missing are user information that override these
claims (`C57_refuted`). -/
theorem C57_partial (env : OEnv) (hl : FloatLaws env.cr.fe) (p : Provider) (req : Request) (tr : List Ev) (r : Response)
    (hg : Dict.get req.data (py! "grant_type") = some (py! "authorization_code"))
    (hinfo : ∀ u scopes info, (⟨.getUserinfo u scopes, .ok info⟩ : Ev) ∈ tr → (Val.dict info).Wf ∧
      ∀ k ∈ providerClaims, Dict.get info k = none)
    (h : Exec (p.token env (oidcTable env p.cfg) req) tr (.ok r)) (hs : r.status = 200) :
    ∃ d access, JsonBody env.cr.fe r d ∧ Dict.get d (py! "access_token") = some (.str access) ∧
      ∀ v, Dict.get d (py! "id_token") = some v →
        ∃ tok c u scopes key alg now ws info, v = .str tok ∧ Authenticated req none tr c ∧
          (⟨.createAccess c (.user (some u)) scopes, .ok access⟩ : Ev) ∈ tr ∧ (⟨.getKeyInfo, .ok (key, alg)⟩ : Ev) ∈ tr ∧
          (⟨.stamp, .ok now⟩ : Ev) ∈ tr ∧ (⟨.getUserinfo u ws, .ok info⟩ : Ev) ∈ tr ∧ Words (joinWith [32] scopes) ws ∧
          GoodIdToken env p.cfg c key alg access tok now info := by
  obtain ⟨d, code, ac, c, user, access, h1, h2, h3, h4, h5, h6, h7, h8, -, hcase⟩ := oidc_exchange hl hg h hs
  refine ⟨d, access, h1, h8, ?_⟩
  intro v hv
  rcases hcase with ⟨-, tok, ⟨key, alg⟩, userinfo, now, token, g1, g0, g2, g3⟩ | ⟨-, g⟩
  · rw [g3] at hv
    cases hv
    obtain ⟨scope, hscope, hask⟩ := g2.asked
    rw [g0] at hscope
    cases hscope
    refine ⟨tok, c, user, ac.scopes, key, alg, now, _, userinfo, rfl, h4, h7, g2.key, g2.clock, hask, words_iff.mpr rfl, ?_⟩
    obtain ⟨hw, hno⟩ := hinfo _ _ _ hask
    obtain ⟨hash, hat, H, Hc⟩ := idToken_decodes hl g2 g1 hw
    refine ⟨hash, hat, ?_⟩
    have hget : ∀ k ∈ providerClaims, dget (idTokenClaims p.cfg c now hash userinfo) k = (Dict.get
            [(py! "iss", .str p.cfg.issuer), (py! "aud", .str c.clientId), (py! "exp", .int (now + p.cfg.idTokenLifespan)),
              (py! "iat", .int now), (py! "at_hash", .str hash)] k).getD .none := by
      intro k hk
      unfold dget idTokenClaims
      rw [Dict.get_update_ok hw.1, hno k hk]
      rfl
    have hwin : ∀ n, now ≤ n → n < now + p.cfg.idTokenLifespan → InWindow n (idTokenClaims p.cfg c now hash userinfo) := by
      intro n hn1 hn2
      refine ⟨?_, ?_, ?_⟩
      · rw [hget _ (by decide)]; rintro i ⟨⟩ _; exact hn2
      · rw [hget _ (by decide)]; rintro i ⟨⟩ _; exact hn1
      · rw [hget _ (by decide)]; rintro i ⟨⟩
    intro vk hp hsr n1 n2 a1 a2 b1 b2
    obtain ⟨t, ht⟩ := H vk hp hsr n1 n2 (hwin n1 a1 a2) (hwin n2 b1 b2)
      ⟨py! "iss", by rw [hget _ (by decide)]; nofun⟩
    have hc := Hc vk hp hsr n1 n2 _ t ht
    refine ⟨t, ht, ?_, ?_, ?_, ?_, ?_, ?_⟩
    iterate 5 (rw [hc, hno _ (by decide)]; rfl)
    intro k hk
    have hnone : Dict.get [(py! "iss", Val.str p.cfg.issuer), (py! "aud", .str c.clientId),
        (py! "exp", .int (now + p.cfg.idTokenLifespan)), (py! "iat", .int now), (py! "at_hash", .str hash)] k = none := by
      rw [Dict.get_eq_none_iff]
      intro hm
      refine hk ?_
      simp only [Dict.keys, List.map_cons, List.map_nil, List.mem_cons, List.not_mem_nil, or_false] at hm
      rcases hm with rfl | rfl | rfl | rfl | rfl <;> decide
    rw [hc, hnone, Option.or_none]
    rfl
  · rw [g] at hv
    cases hv

/-- The hypotheses are satisfiable: the toy run contains an ID token, and its claims are as promised. -/
example : ((idTokenOf (toyOidcRun (toyCode [py! "openid", py! "read"]) toyInfo).2).bind (claimOf (py! "aud"))) =
    some (py! "c1") := by decide +kernel

example : (Val.dict toyInfo).Wf ∧ ∀ k ∈ providerClaims, Dict.get toyInfo k = none := by
  refine ⟨⟨by simp [toyInfo], wfD_iff.mpr ?_⟩, ?_⟩
  · intro kv hkv
    rw [List.mem_singleton.mp hkv]
    trivial
  · intro k hk
    simp only [providerClaims, List.mem_cons, List.not_mem_nil, or_false] at hk
    rcases hk with rfl | rfl | rfl | rfl | rfl | rfl <;> rfl

example : GenuinePair toyCrypto toySigningKey.mat toySigningKey.mat ∧ SameRestrictions toySigningKey toySigningKey :=
  ⟨toyCrypto_genuine _, fun _ _ => rfl⟩

/-- User information with an audience of its own. -/
def toyBadInfo : Dict PyStr Val := [(py! "sub", .str (py! "u1")), (py! "aud", .str (py! "other"))]

/-- C57 is false: a claim `aud` among the user information replaces the client as the audience. -/
theorem C57_refuted : ¬ ∀ (env : OEnv) (p : Provider) (req : Request) (tr : List Ev) (r : Response)
    (d : Dict PyStr Val) (tok : PyStr), FloatLaws env.cr.fe →
    Exec (p.token env (oidcTable env p.cfg) req) tr (.ok r) → JsonBody env.cr.fe r d →
    Dict.get d (py! "id_token") = some (.str tok) →
    ∀ key alg, (⟨.getKeyInfo, .ok (key, alg)⟩ : Ev) ∈ tr →
    ∀ n t, Jwt.decodeStr env.cr n n tok key (some alg) true .none = .ok t →
      ∃ c, Authenticated req none tr c ∧ dget t.claims (py! "aud") = .str c.clientId := by
  intro H
  have hx := toyOidcRun_exec (toyCode [py! "openid"]) toyBadInfo
  have hclaim : ((idTokenOf (toyOidcRun (toyCode [py! "openid"]) toyBadInfo).2).bind (claimOf (py! "aud"))) =
    some (py! "other") := by decide +kernel
  obtain ⟨tok, ht, hc⟩ := Option.bind_eq_some_iff.mp hclaim
  obtain ⟨r, d, h1, h2, h3, h4⟩ := idTokenOf_some ht
  obtain ⟨j, hj, haud⟩ := claimOf_some hc
  rw [h1] at hx
  have hkey : ∃ key alg, (⟨.getKeyInfo, .ok (key, alg)⟩ : Ev) ∈ (toyOidcRun (toyCode [py! "openid"]) toyBadInfo).1 := by
    obtain ⟨d', code, ac, c, user, access, g1, g2, g3, g4, g5, g6, g7, g8, -, hcase⟩ :=
      oidc_exchange (p := toyProvider) toyFloat_laws (by decide +kernel) hx h2
    rcases hcase with ⟨-, tok, ⟨key, alg⟩, userinfo, now, token, k1, -, k2, k3⟩ | ⟨-, g⟩
    · exact ⟨key, alg, k2.key⟩
    · have : d' = d := by
        have := g1.symm.trans h3
        cases this
        rfl
      rw [this, h4] at g
      cases g
  obtain ⟨key, alg, hkey⟩ := hkey
  have hk : key = toySigningKey ∧ alg = py! "HS256" := by
    rcases run_answers _ _ _ _ hkey with h | ⟨h', ha⟩
    · cases h
    · simp only [toyOidc] at ha
      cases ha
      exact ⟨rfl, rfl⟩
  obtain ⟨rfl, rfl⟩ := hk
  obtain ⟨c, ⟨m, id, hf, hauth⟩, hcid⟩ := H toyEnv toyProvider toyExchange _ r d tok toyFloat_laws hx h3 h4 _ _ hkey 300 j hj
  rw [haud] at hcid
  rcases run_answers _ _ _ _ hf with h | ⟨h', ha⟩
  · cases h
  · simp only [toyOidc, toyAdapter] at ha
    split at ha
    · cases ha
      revert hcid
      simp [toyClient]
    · cases ha

/-! ## C58 -/

/-- C58, exactly: the nonce in the ID token is the one among the user information, whatever the authorization request and the
code say. -/
theorem C58_exact (env : OEnv) (hl : FloatLaws env.cr.fe) (p : Provider) (req : Request) (tr : List Ev) (r : Response)
    (hg : Dict.get req.data (py! "grant_type") = some (py! "authorization_code"))
    (hinfo : ∀ u scopes info, (⟨.getUserinfo u scopes, .ok info⟩ : Ev) ∈ tr → (Val.dict info).Wf)
    (h : Exec (p.token env (oidcTable env p.cfg) req) tr (.ok r)) (hs : r.status = 200) :
    ∃ d, JsonBody env.cr.fe r d ∧ ∀ tok, Dict.get d (py! "id_token") = some (.str tok) →
      ∃ key alg u scopes info, (⟨.getKeyInfo, .ok (key, alg)⟩ : Ev) ∈ tr ∧
        (⟨.getUserinfo u scopes, .ok info⟩ : Ev) ∈ tr ∧
        ∀ n1 n2 vk t, GenuinePair env.cr key.mat vk.mat → SameRestrictions key vk →
          Jwt.decodeStr env.cr n1 n2 tok vk (some alg) true .none = .ok t →
          dget t.claims (py! "nonce") = dget info (py! "nonce") := by
  obtain ⟨d, code, ac, c, user, access, h1, h2, h3, h4, h5, h6, h7, h8, -, hcase⟩ := oidc_exchange hl hg h hs
  refine ⟨d, h1, ?_⟩
  intro v hv
  rcases hcase with ⟨-, tok, ⟨key, alg⟩, userinfo, now, token, g1, g0, g2, g3⟩ | ⟨-, g⟩
  · rw [g3] at hv
    cases hv
    obtain ⟨scope, -, hask⟩ := g2.asked
    obtain ⟨hash, -, -, Hc⟩ := idToken_decodes hl g2 g1 (hinfo _ _ _ hask)
    refine ⟨key, alg, user, _, userinfo, g2.key, hask, ?_⟩
    intro n1 n2 vk t hp hsr ht
    rw [Hc vk hp hsr n1 n2 _ t ht]
    unfold dget
    cases Dict.get userinfo (py! "nonce") <;> rfl
  · rw [g] at hv
    cases hv

/-- A code with a nonce. -/
def toyNonceCode : AuthCode := { toyCode [py! "openid"] with nonce := some (py! "n1") }

/-- C58 is false: the ID token does not carry the nonce stored with the code. -/
theorem C58_refuted : ¬ ∀ (env : OEnv) (p : Provider) (req : Request) (tr : List Ev) (r : Response)
    (d : Dict PyStr Val) (tok : PyStr) (code : Val) (ac : AuthCode) (nonce : PyStr), FloatLaws env.cr.fe →
    Exec (p.token env (oidcTable env p.cfg) req) tr (.ok r) → r.status = 200 → JsonBody env.cr.fe r d →
    Dict.get d (py! "id_token") = some (.str tok) → FoundCode tr code ac → ac.nonce = some nonce →
    ∀ n key alg t, Jwt.decodeStr env.cr n n tok key (some alg) true .none = .ok t →
      dget t.claims (py! "nonce") = .str nonce := by
  intro H
  have hx := toyOidcRun_exec toyNonceCode toyInfo
  have hclaim : ((idTokenOf (toyOidcRun toyNonceCode toyInfo).2).bind (claimOf (py! "iss"))) = some (py! "https://s") := by
    decide +kernel
  have hnone : ((idTokenOf (toyOidcRun toyNonceCode toyInfo).2).bind (claimOf (py! "nonce"))) = none := by decide +kernel
  obtain ⟨tok, ht, hc⟩ := Option.bind_eq_some_iff.mp hclaim
  obtain ⟨r, d, h1, h2, h3, h4⟩ := idTokenOf_some ht
  obtain ⟨j, hj, -⟩ := claimOf_some hc
  rw [h1] at hx
  obtain ⟨d', code, ac, c, user, access, g1, g2, g3, -⟩ :=
    oidc_exchange (p := toyProvider) toyFloat_laws (by decide +kernel) hx h2
  have hac : ac = toyNonceCode := by
    rcases run_answers _ _ _ _ g3 with h | ⟨h', ha⟩
    · cases h
    · simp only [toyOidc, toyAdapter] at ha
      split at ha
      · cases ha; rfl
      · cases ha
  subst hac
  have := H toyEnv toyProvider toyExchange _ r d tok _ _ (py! "n1") toyFloat_laws hx h2 h3 h4 g3 rfl 300 _ _ j hj
  rw [ht, Option.bind_some] at hnone
  unfold claimOf at hnone
  rw [hj] at hnone
  dsimp only at hnone
  rw [this] at hnone
  cases hnone

/-- C58, first half: the nonce of an authorization request is stored with the code. -/
theorem C58_partial (env : OEnv) (p : Provider) (req : Request) (pre post : List Ev) (code : PyStr)
    (data : Dict PyStr Val) (c : Client) (u : User) (ans : ORes Unit) (nonce : PyStr)
    (hn : Dict.get req.data (py! "nonce") = some nonce) (hne : nonce ≠ [])
    (h : Partial (p.authorize env (oidcTable env p.cfg) req) (pre ++ ⟨.saveCode code data c u, ans⟩ :: post)) :
    Dict.get data (py! "nonce") = some (.str nonce) := by
  obtain ⟨-, -, d, tr, hd, hx⟩ := authorize_op (benign_oidcTable env p.cfg) h
  have hx : Exec (P.bind (oidcAuthorizationRequest (Dict.del req.data (py! "response_type")))
      fun r => P.ret (updateHook d r)) tr (.ok data) := hx
  have hn' : Dict.get (Dict.del req.data (py! "response_type")) (py! "nonce") = some nonce := by
    rw [Dict.get_del _ (by decide)]; exact hn
  unfold oidcAuthorizationRequest at hx
  rw [hn', if_neg (by rw [blank_eq_false.mpr ⟨nonce, hn', hne⟩]; decide)] at hx
  obtain ⟨rfl, hx⟩ := exec_done hx
  cases hx
  exact Dict.get_set_same _ _ _

/-- A valid authorization request with a nonce stores a code. -/
example : ∃ pre post code data c u ans, Partial (toyProvider.authorize toyEnv (oidcTable toyEnv toyProvider.cfg)
      (toyGet ((py! "nonce", py! "n1") :: toyAuthQuery) (some toyUser)))
    (pre ++ ⟨.saveCode code data c u, ans⟩ :: post) := by
  have hx := exec_partial (exec_run toyUsual (toyProvider.authorize toyEnv (oidcTable toyEnv toyProvider.cfg)
      (toyGet ((py! "nonce", py! "n1") :: toyAuthQuery) (some toyUser))))
  obtain ⟨pre, post, code, data, c, u, ans, heq⟩ := split_saves (l := (Prog.run toyUsual [] (toyProvider.authorize toyEnv
    (oidcTable toyEnv toyProvider.cfg) (toyGet ((py! "nonce", py! "n1") :: toyAuthQuery) (some toyUser)))).1) (by decide +kernel)
  rw [heq] at hx
  exact ⟨pre, post, code, data, c, u, ans, hx⟩

end Psion.Props
