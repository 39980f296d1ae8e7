import Verif.Props.ExampleOidc
import Verif.Spec.TokenKinds

/-!
# Properties C137 and C138: access tokens and ID tokens of the example application

The example application signs both with the same key and the same algorithm (`/repo/example/adapter.py:81` and `:125`).
-/

namespace Psion.Props

open Psion Spec Example

/-! ## What is read from the tokens -/

/-- The algorithm that somebody expects who checks the tokens of the example application: none in particular, or the right one. -/
def ExpectsHS256 (alg : Option PyStr) : Prop := alg = none ∨ alg = some (py! "HS256")

/-- Whatever is decoded from an access token is what was put into it. -/
theorem access_decoded {env : OEnv} (hl : FloatLaws env.cr.fe) {m m' : Store} {client : Client} {owner : Owner}
    {scopes : List PyStr} {t : PyStr} (h : ExStep env m ⟨.createAccess client owner scopes, .ok t⟩ m') :
    ∃ stamp sub jti, OwnerHas owner sub ∧ ∀ n1 n2 alg opts jwt, ExpectsHS256 alg →
      Jwt.decodeStr env.cr n1 n2 t exKey alg true opts = .ok jwt →
      jwt.claims = accessClaims stamp sub jti client scopes ∧
        jwt.header.data = [(py! "alg", .str (py! "HS256")), (py! "typ", .str (py! "at+jwt"))] := by
  obtain ⟨d, h | ⟨⟨n, e⟩, -⟩⟩ := h
  · have h : createAccess env d client owner scopes = .ok t := liftRes_eq_ok (congrArg Prod.snd h)
    obtain ⟨sub, jti, jwt', ho, hi, he⟩ := createAccess_ok h
    obtain ⟨hc, hh, hwh⟩ := accessJwt hi
    obtain ⟨-, hwf⟩ := accessClaims_wf d.stamp sub jti client scopes
    refine ⟨d.stamp, sub, jti, ho, ?_⟩
    intro n1 n2 alg opts jwt halg hd
    obtain ⟨h1, h2⟩ := jwt_decoded env.cr hl d.stamp2 _ _ jwt' hi (hc ▸ hwf) hwh exKey exKey d.seed t he (C19_oct_pair _ _)
      (fun _ _ => rfl) alg (halg.imp id fun h => ⟨_, h, by rw [hh]; rfl⟩) n1 n2 opts jwt hd
    exact ⟨h1.trans hc, by rw [h2, hh]⟩
  · cases e

/-- Whatever is decoded from an ID token is what was put into it. -/
theorem idToken_decoded {env : OEnv} (hl : FloatLaws env.cr.fe) {cfg : Config} {token : Dict PyStr Val} {client : Client}
    {user : User} {h : List Ev} {key : Jwk} {alg : PyStr} {info : Dict PyStr Val} {now : Int} {tok : PyStr}
    (hm : IdTokenMade env cfg token client user h (key, alg) info now tok) (hw : (Val.dict info).Wf) :
    ∃ hash, ∀ vk, GenuinePair env.cr key.mat vk.mat → SameRestrictions key vk → ∀ n1 n2 a opts t, (a = none ∨ a = some alg) →
      Jwt.decodeStr env.cr n1 n2 tok vk a true opts = .ok t →
      dget t.header.data (py! "typ") = .str (py! "JWT") ∧
        ∀ k, dget t.claims k = ((Dict.get info k).or (Dict.get
          [(py! "iss", .str cfg.issuer), (py! "aud", .str client.clientId), (py! "exp", .int (now + cfg.idTokenLifespan)),
            (py! "iat", .int now), (py! "at_hash", .str hash)] k)).getD .none := by
  obtain ⟨hash, now1, now2, claims, kid, jwt, seed, -, h2, h3, h4, h5⟩ := hm.made
  have hok0 : Dict.Ok (idTokenClaims cfg client now hash info) := Dict.ok_update (by simp [Dict.Ok, Dict.keys]) _
  have hclaims : claims = fullDict (idTokenClaims cfg client now hash info) := by
    unfold idTokenInit at h2
    split at h2
    · cases h2
    · split at h2
      · cases h2
      · split at h2
        · cases h2
        · split at h2
          · cases h2
          · obtain ⟨c, hc, -, hr, -⟩ := claimsInit_ok.mp h2
            cases hc
            exact hr
  have hjc : jwt.claims = claims := by
    obtain ⟨-, hc, -⟩ := jwtInit_ok.mp h4
    obtain ⟨c', e, -, hc', -⟩ := claimsInit_ok.mp hc
    cases e
    rw [hc', hclaims, fullDict_idem]
  have hwc : (Val.dict jwt.claims).Wf := by
    rw [hjc, hclaims]
    refine ⟨ok_fullDict hok0, wfD_iff.mpr ?_⟩
    intro kv hkv
    rcases Dict.mem_update (List.mem_filter.mp hkv).1 with hkv | hkv
    · simp only [List.mem_cons, List.not_mem_nil, or_false] at hkv
      rcases hkv with rfl | rfl | rfl | rfl | rfl <;> trivial
    · exact wfD_iff.mp hw.2 kv hkv
  have hhd : ∃ c s, kid = .str (c :: s) ∧ jwt.header.data = fullDict
      [(py! "alg", .str alg), (py! "typ", .str (py! "JWT")), (py! "kid", kid)] := by
    obtain ⟨hh, -⟩ := jwtInit_ok.mp h4
    obtain ⟨hd, e, h6, -, -, -, h7, -⟩ := headerInit_ok.mp hh
    cases e
    rcases validateText_ok.mp h7 with h7 | ⟨c, s, h7⟩
    · cases h7
    · cases h7
      exact ⟨c, s, rfl, h6⟩
  obtain ⟨c, s, rfl, hhd⟩ := hhd
  have hwh : (Val.dict jwt.header.data).Wf := by
    rw [hhd]
    refine ⟨ok_fullDict (by simp [Dict.Ok, Dict.keys]), wfD_iff.mpr ?_⟩
    intro kv hkv
    have hkv := (List.mem_filter.mp hkv).1
    simp only [List.mem_cons, List.not_mem_nil, or_false] at hkv
    rcases hkv with rfl | rfl | rfl <;> trivial
  refine ⟨hash, ?_⟩
  intro vk hpair hsame n1 n2 a opts t ha ht
  obtain ⟨hc, hh⟩ := jwt_decoded env.cr hl now2 (.dict claims) _ jwt h4 hwc hwh key vk seed tok h5 hpair hsame a
    (ha.imp id fun h => ⟨alg, h, by rw [hhd]; rfl⟩) n1 n2 opts t ht
  refine ⟨by rw [hh, hhd]; rfl, ?_⟩
  intro k
  rw [hc, hjc, hclaims, dget_fullDict hok0]
  unfold dget idTokenClaims
  rw [Dict.get_update_ok hw.1]

/-- Request number `i` of the history was one to the token endpoint, and its successful answer contains the ID token `tok`. -/
def AnsweredIdToken (env : OEnv) (calls : Nat → Call) (h : List Step) (i : Nat) (tok : PyStr) : Prop :=
  ∃ req r d, calls i = .token exProvider req ∧
    Exec (exProvider.token env (exHooks env) req) (ofRequest i h) (.ok r) ∧ r.status = 200 ∧ JsonBody env.cr.fe r d ∧
    Dict.get d (py! "id_token") = some (.str tok)

/-- The value is no list. -/
def NoList (v : Val) : Prop := ∀ l, v ≠ .list l

theorem discloses_noList {row : UserRow} {scopes : List PyStr} {k : PyStr} {v : Val} (h : Discloses row scopes k v)
    (hk : k ≠ py! "address") : NoList v := by
  have opt : ∀ o, NoList (optVal o) := by intro o l e; cases o <;> cases e
  rcases h with ⟨-, rfl⟩ | ⟨-, sc, -, claims, hm, hv⟩ | ⟨-, -, rfl⟩
  · intro l e; cases e
  · simp only [scopeClaims, List.mem_cons, List.not_mem_nil, or_false] at hm
    rcases hm with hm | hm | hm | hm <;> obtain ⟨-, rfl⟩ := Prod.mk.inj hm <;>
      simp only [List.mem_cons, List.not_mem_nil, or_false] at hv
    · rcases hv with hv | hv | hv | hv | hv | hv | hv | hv | hv | hv | hv | hv | hv | hv <;>
        obtain ⟨-, rfl⟩ := Prod.mk.inj hv <;> first | exact opt _ | (intro l e; cases e)
    · rcases hv with hv | hv <;> obtain ⟨-, rfl⟩ := Prod.mk.inj hv <;> first | exact opt _ | (intro l e; cases e)
    · exact absurd (Prod.mk.inj hv).1 hk
    · rcases hv with hv | hv <;> obtain ⟨-, rfl⟩ := Prod.mk.inj hv <;> first | exact opt _ | (intro l e; cases e)
  · intro l e; cases e

/-- What is decoded from the ID tokens of the example application. -/
theorem answered_decoded {env : OEnv} (hl : FloatLaws env.cr.fe) {calls : Nat → Call} {s s' : Store} {h : List Step}
    (hrun : ExRun env s h s') {i : Nat} {tok : PyStr} (ha : AnsweredIdToken env calls h i tok) (n1 n2 : Int)
    (alg : Option PyStr) (halg : ExpectsHS256 alg) (opts : Val) (t : Jwt)
    (ht : Jwt.decodeStr env.cr n1 n2 tok exKey alg true opts = .ok t) :
    IdKind t ∧ ∀ k, k ≠ py! "address" → NoList (dget t.claims k) := by
  obtain ⟨req, r, d, -, hx, hs, hd, htok⟩ := ha
  have hg := idToken_grant hl hx hs hd htok
  obtain ⟨d', code, ac, c, user, access, h1, h2, h3, h4, h5, h6, h7, h8, -, hcase⟩ := oidc_exchange hl hg hx hs
  cases h1.symm.trans hd
  rcases hcase with ⟨-, tok', ⟨key, al⟩, info, now, token, g1, g0, g2, g3⟩ | ⟨-, g⟩
  · cases htok.symm.trans g3
    have hk : key = exKey ∧ al = py! "HS256" := by
      obtain ⟨a, b, rfl⟩ := List.append_of_mem (mem_ofRequest.mp g2.key)
      obtain ⟨m, m', -, hst, -⟩ := run_at hrun
      exact step_getKeyInfo hst
    obtain ⟨rfl, rfl⟩ := hk
    obtain ⟨scope, -, hask⟩ := g2.asked
    obtain ⟨a, b, rfl⟩ := List.append_of_mem (mem_ofRequest.mp hask)
    obtain ⟨m, m', -, hst, -⟩ := run_at hrun
    obtain ⟨row, -, rfl⟩ := step_getUserinfo hst
    obtain ⟨hash, H⟩ := idToken_decoded hl g2 (userinfo_wf _ _)
    obtain ⟨htyp, hcl⟩ := H exKey (C19_oct_pair _ _) (fun _ _ => rfl) n1 n2 alg opts t halg ht
    have hno := userinfo_others row (splitWs scope)
    have prov : ∀ k ∈ providerClaims, dget t.claims k = (Dict.get
        [(py! "iss", .str exProvider.cfg.issuer), (py! "aud", .str c.clientId),
          (py! "exp", .int (now + exProvider.cfg.idTokenLifespan)), (py! "iat", .int now), (py! "at_hash", .str hash)] k).getD
        .none := by
      intro k hk
      rw [hcl, hno k hk]
      rfl
    have other : ∀ k, k ∉ providerClaims → dget t.claims k = dget (userinfo row (splitWs scope)) k := by
      intro k hk
      rw [hcl]
      have : Dict.get [(py! "iss", Val.str exProvider.cfg.issuer), (py! "aud", .str c.clientId),
          (py! "exp", .int (now + exProvider.cfg.idTokenLifespan)), (py! "iat", .int now), (py! "at_hash", .str hash)] k = none := by
        refine Dict.get_eq_none_iff.mpr ?_
        intro hm
        apply hk
        simp only [Dict.keys, List.map_cons, List.map_nil, List.mem_cons, List.not_mem_nil, or_false] at hm
        rcases hm with rfl | rfl | rfl | rfl | rfl <;> decide
      rw [this, Option.or_none]
      rfl
    have absent : ∀ k, k ∉ providerClaims → k ≠ py! "sub" →
        (∀ sc ∈ scopeClaims row, k ∉ Dict.keys sc.2) → dget t.claims k = .none := by
      intro k hk hsub hsc
      rw [other k hk]
      rcases userinfo_discloses row (splitWs scope) k with ⟨e, -⟩ | ⟨-, sc, -, claims, hm, hv⟩ | ⟨-, -, e⟩
      · exact absurd e hsub
      · exact absurd (List.mem_map.mpr ⟨_, hv, rfl⟩) (hsc _ hm)
      · exact e
    refine ⟨⟨htyp, ⟨_, prov _ (by decide)⟩, ⟨_, prov _ (by decide)⟩, ?_⟩, ?_⟩
    · intro k hk
      simp only [List.mem_cons, List.not_mem_nil, or_false] at hk
      rcases hk with rfl | rfl | rfl <;> refine absent _ (by decide) (by decide) ?_ <;> intro sc hsc <;>
        simp only [scopeClaims, List.mem_cons, List.not_mem_nil, or_false] at hsc <;>
        rcases hsc with rfl | rfl | rfl | rfl <;> simp only [Dict.keys, List.map_cons, List.map_nil] <;> decide
    · intro k hk
      by_cases hp : k ∈ providerClaims
      · rw [prov k hp]
        simp only [providerClaims, List.mem_cons, List.not_mem_nil, or_false] at hp
        rcases hp with rfl | rfl | rfl | rfl | rfl | rfl <;> intro l e <;> cases e
      · rw [other k hp]
        exact discloses_noList (userinfo_discloses _ _ _) hk
  · rw [g] at htok
    cases htok

/-- An option that demands a claim which is missing is not met. -/
theorem demands_missing {o : Dict PyStr Val} (h : Demands o) : ¬ OptionMetTruthy .none o := by
  intro hm
  rcases h with h | ⟨c, s, h⟩
  · exact hm.essential (by rw [h]; rfl) rfl
  · have := hm.value (by rw [h]; rfl)
    rw [h] at this
    cases this

theorem decodeStr_bytes {cr : Crypto} {n1 n2 : Int} {tok : PyStr} {key : Jwk} {alg : Option PyStr} {opts : Val} {t : Jwt}
    (h : Jwt.decodeStr cr n1 n2 tok key alg true opts = .ok t) : ∃ b, Jwt.decode cr n1 n2 b key alg true opts = .ok t := by
  unfold Jwt.decodeStr at h
  cases hb : utf8Encode tok with
  | error e => rw [hb] at h; cases h
  | ok b => rw [hb, ok_bind] at h; exact ⟨b, h⟩

/-! ## C137 -/

/-- C137: whatever is decoded from an access token of the example application is an access token. -/
theorem C137_access (env : OEnv) (hl : FloatLaws env.cr.fe) (m m' : Store) (client : Client) (owner : Owner) (scopes : List PyStr)
    (t : PyStr) (h : ExStep env m ⟨.createAccess client owner scopes, .ok t⟩ m') (n1 n2 : Int) (alg : Option PyStr)
    (halg : ExpectsHS256 alg) (opts : Val) (jwt : Jwt) (hd : Jwt.decodeStr env.cr n1 n2 t exKey alg true opts = .ok jwt) :
    AccessKind jwt := by
  obtain ⟨stamp, sub, jti, -, H⟩ := access_decoded hl h
  obtain ⟨hc, hh⟩ := H n1 n2 alg opts jwt halg hd
  refine ⟨by rw [hh]; rfl, ⟨_, by rw [hc]; rfl⟩, ⟨_, by rw [hc]; rfl⟩, ⟨_, by rw [hc]; rfl⟩, ?_⟩
  intro k hk
  rw [hc]
  simp only [List.mem_cons, List.not_mem_nil, or_false] at hk
  rcases hk with rfl | rfl | rfl <;> rfl

/-- C137: whatever is decoded from an ID token that the example application has issued is an ID token. -/
theorem C137_identity (env : OEnv) (hl : FloatLaws env.cr.fe) (calls : Nat → Call) (s s' : Store) (h : List Step)
    (hrun : ExRun env s h s') (i : Nat) (tok : PyStr) (ha : AnsweredIdToken env calls h i tok) (n1 n2 : Int) (alg : Option PyStr)
    (halg : ExpectsHS256 alg) (opts : Val) (t : Jwt) (ht : Jwt.decodeStr env.cr n1 n2 tok exKey alg true opts = .ok t) :
    IdKind t :=
  (answered_decoded hl hrun ha n1 n2 alg halg opts t ht).1

/-- C137: a client that demands an audience (or the hash of an access token, or its nonce) accepts no access token. -/
theorem C137_client (env : OEnv) (hl : FloatLaws env.cr.fe) (m m' : Store) (client : Client) (owner : Owner) (scopes : List PyStr)
    (t : PyStr) (h : ExStep env m ⟨.createAccess client owner scopes, .ok t⟩ m') (opts o : Dict PyStr Val) (k : PyStr)
    (hk : k ∈ [py! "aud", py! "at_hash", py! "nonce"]) (ho : (k, Val.dict o) ∈ opts) (hdem : Demands o) (n1 n2 : Int)
    (alg : Option PyStr) (halg : ExpectsHS256 alg) (jwt : Jwt) :
    Jwt.decodeStr env.cr n1 n2 t exKey alg true (.dict opts) ≠ .ok jwt := by
  intro hd
  obtain ⟨stamp, sub, jti, -, H⟩ := access_decoded hl h
  obtain ⟨hc, -⟩ := H n1 n2 alg _ jwt halg hd
  have hkind := C137_access env hl m m' client owner scopes t h n1 n2 alg halg _ jwt hd
  obtain ⟨b, hb⟩ := decodeStr_bytes hd
  have hmet := C32_no_lists_partial env.cr n1 n2 b exKey alg opts jwt hb (by
    intro k' o' items _ e
    rw [hc] at e
    have hm : ∀ kv ∈ accessClaims stamp sub jti client scopes, NoList kv.2 := by
      intro kv hkv
      simp only [accessClaims, List.mem_cons, List.not_mem_nil, or_false] at hkv
      rcases hkv with rfl | rfl | rfl | rfl | rfl | rfl | rfl <;> intro l e <;> cases e
    unfold dget at e
    cases hg : Dict.get (accessClaims stamp sub jti client scopes) k' with
    | none => rw [hg] at e; cases e
    | some v =>
      rw [hg] at e
      exact hm _ (Dict.mem_of_get hg) _ e) k o ho
  rw [hkind.others k hk] at hmet
  exact demands_missing hdem hmet

/-- C137: a resource server that demands the client, the scopes or the id of an access token accepts no ID token. The options must
not be about the claim `address`, which can be a list: a match inside a list ends the check of the options
(`C32_options_refuted`). -/
theorem C137_server (env : OEnv) (hl : FloatLaws env.cr.fe) (calls : Nat → Call) (s s' : Store) (h : List Step)
    (hrun : ExRun env s h s') (i : Nat) (tok : PyStr) (ha : AnsweredIdToken env calls h i tok) (opts o : Dict PyStr Val) (k : PyStr)
    (hk : k ∈ [py! "client_id", py! "scope", py! "jti"]) (ho : (k, Val.dict o) ∈ opts) (hdem : Demands o)
    (hadr : py! "address" ∉ Dict.keys opts) (n1 n2 : Int) (alg : Option PyStr) (halg : ExpectsHS256 alg) (t : Jwt) :
    Jwt.decodeStr env.cr n1 n2 tok exKey alg true (.dict opts) ≠ .ok t := by
  intro hd
  obtain ⟨hkind, hno⟩ := answered_decoded hl hrun ha n1 n2 alg halg _ t hd
  obtain ⟨b, hb⟩ := decodeStr_bytes hd
  have hmet := C32_no_lists_partial env.cr n1 n2 b exKey alg opts t hb (by
    intro k' o' items hm
    refine hno k' ?_ items
    rintro rfl
    exact hadr (List.mem_map.mpr ⟨_, hm, rfl⟩)) k o ho
  rw [hkind.others k hk] at hmet
  exact demands_missing hdem hmet

/-- C137: no text is both an access token and an ID token of the example application. -/
theorem C137_distinct (env : OEnv) (hl : FloatLaws env.cr.fe) (calls : Nat → Call) (s s' : Store) (h : List Step)
    (hrun : ExRun env s h s') (i : Nat) (tok : PyStr) (ha : AnsweredIdToken env calls h i tok) (m m' : Store) (client : Client)
    (owner : Owner) (scopes : List PyStr) (t : PyStr) (hacc : ExStep env m ⟨.createAccess client owner scopes, .ok t⟩ m') :
    tok ≠ t := by
  rintro rfl
  have hacc' := hacc
  obtain ⟨d, hop | ⟨⟨n, e⟩, -⟩⟩ := hacc
  · obtain ⟨sub, -, hr⟩ := C65_content env hl d m m' client owner scopes tok hop
    obtain ⟨jwt, hj, -⟩ := hr d.stamp d.stamp (by omega) (by omega) (by omega) (by omega)
    have h1 := C137_access env hl m m' client owner scopes tok hacc' _ _ _ (Or.inr rfl) _ jwt hj
    have h2 := C137_identity env hl calls s s' h hrun i tok ha _ _ _ (Or.inr rfl) _ jwt hj
    have := h1.typ.symm.trans h2.typ
    cases this
  · cases e

/-- There is such a history: an authorization and an exchange of the code, whose answer contains an ID token. -/
example : ∃ h s' tok, ExRun toyEnv exStore h s' ∧ AnsweredIdToken toyEnv exCalls h 1 tok := by
  have hsome : (memberOf (py! "id_token") (outcome ((exSim exCalls (exTurn 0 3 0 ++ exTurn 1 13 1)).2.2 1))).isSome = true := by
    decide +kernel
  obtain ⟨t, ht⟩ := Option.isSome_iff_exists.mp hsome
  obtain ⟨r, d, h1, h2, h3, h4⟩ := memberOf_some ht
  exact ⟨_, _, t, exSim_run _ _, _, r, d, rfl, sim_outcome h1, h2, h3, h4⟩

/-- And there are access tokens. -/
example : ∃ t, ExStep toyEnv exStore
    ⟨.createAccess exClient.client (.user (some exUser.user)) [py! "openid", py! "email"], .ok t⟩ exStore := by
  have : (match createAccess toyEnv (exDraw 1) exClient.client (.user (some exUser.user)) [py! "openid", py! "email"] with
    | .ok _ => true | .error _ => false) = true := by decide +kernel
  split at this
  · rename_i t ht
    refine ⟨t, exDraw 1, Or.inl ?_⟩
    unfold exOp
    dsimp only
    rw [ht]
    rfl
  · cases this

example : Demands [(py! "essential", .bool true)] ∧ Demands [(py! "value", .str (py! "client"))] :=
  ⟨Or.inl rfl, Or.inr ⟨_, _, rfl⟩⟩

/-! ## C138 -/

/-- C138, what holds: whatever is decoded from an access token of the example application is signed, is of the right type, and
contains all claims that RFC 9068 requires, except for the audience. Missing is the audience, which no access token contains
(`C138_refuted`). -/
theorem C138_partial (env : OEnv) (hl : FloatLaws env.cr.fe) (m m' : Store) (client : Client) (owner : Owner) (scopes : List PyStr)
    (t : PyStr) (h : ExStep env m ⟨.createAccess client owner scopes, .ok t⟩ m') (n1 n2 : Int) (alg : Option PyStr)
    (halg : ExpectsHS256 alg) (opts : Val) (jwt : Jwt) (hd : Jwt.decodeStr env.cr n1 n2 t exKey alg true opts = .ok jwt) :
    (∃ a, dget jwt.header.data (py! "alg") = .str a ∧ a ≠ py! "none") ∧
      dget jwt.header.data (py! "typ") = .str (py! "at+jwt") ∧
      ∀ k ∈ requiredOfAccess, k ≠ py! "aud" → dget jwt.claims k ≠ .none := by
  obtain ⟨stamp, sub, jti, -, H⟩ := access_decoded hl h
  obtain ⟨hc, hh⟩ := H n1 n2 alg opts jwt halg hd
  rw [hc, hh]
  refine ⟨⟨_, rfl, by decide⟩, rfl, ?_⟩
  intro k hk hne
  simp only [requiredOfAccess, List.mem_cons, List.not_mem_nil, or_false] at hk
  rcases hk with rfl | rfl | rfl | rfl | rfl | rfl | rfl
  case inr.inr.inl => exact absurd rfl hne
  all_goals intro e; cases e

/-- C138 is false: every access token of the example application is accepted at the time of its creation, but it is never one that
RFC 9068 describes, because it has no audience. -/
theorem C138_refuted (env : OEnv) (hl : FloatLaws env.cr.fe) (m m' : Store) (client : Client) (owner : Owner) (scopes : List PyStr)
    (t : PyStr) (h : ExStep env m ⟨.createAccess client owner scopes, .ok t⟩ m') :
    ∃ n jwt, Jwt.decodeStr env.cr n n t exKey (some (py! "HS256")) true .none = .ok jwt ∧ ¬ Rfc9068 jwt := by
  have h' := h
  obtain ⟨d, hop | ⟨⟨n, e⟩, -⟩⟩ := h
  · obtain ⟨sub, -, hr⟩ := C65_content env hl d m m' client owner scopes t hop
    obtain ⟨jwt, hj, -⟩ := hr d.stamp d.stamp (by omega) (by omega) (by omega) (by omega)
    refine ⟨_, jwt, hj, ?_⟩
    intro hr
    exact hr.claims (py! "aud") (by decide)
      ((C137_access env hl m m' client owner scopes t h' _ _ _ (Or.inr rfl) _ jwt hj).others _ (by decide))
  · cases e

end Psion.Props
