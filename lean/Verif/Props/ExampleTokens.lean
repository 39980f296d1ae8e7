import Verif.Props.System

/-!
# The example application: the access tokens

What a resource server that knows the key of the example application learns from an access token.
-/

namespace Psion.Props

open Psion Spec Example

/-! ## The key -/

/-- The text of the key. -/
def exSecret : Bytes := by! "super_secret_key_that_no_one_will_be_able_to_guess"

/-- `SECRET_KEY` of the example application (`/repo/example/adapter.py:16-22`) is `exKey`, unless there is a file of this name. -/
theorem exKey_parsed (cr : Crypto) (hfile : cr.readFile exSecret = .ok none) :
    Jwk.parse cr exSecret (py! "oct") false none (py! "der") [(py! "kid", .str (py! "secret_key_id"))] = .ok exKey := by
  have ht : toStringB (b64urlEncode exSecret) =
      py! "c3VwZXJfc2VjcmV0X2tleV90aGF0X25vX29uZV93aWxsX2JlX2FibGVfdG9fZ3Vlc3M" := by
    rw [toStringB_b64url]; decide +kernel
  have hk : Kty.ofName (py! "oct") = some .oct := by decide
  have hm : materialParse cr .oct exSecret none (py! "der") = .ok (.oct exSecret) := by
    unfold materialParse octParse parseRaw
    rw [hfile]
    dsimp only
    rw [if_neg (by decide), if_pos (by decide)]
    exact octInit_canon rfl rfl
  unfold Jwk.parse
  rw [hk]
  dsimp only
  rw [hm]
  dsimp only [Material.dump]
  refine jwkInit_ok.mpr ⟨_, rfl, ?_, rfl, octInit_canon (s := exSecret) rfl rfl⟩
  rw [ht]
  rfl

example : ∃ cr : Crypto, cr.readFile exSecret = .ok none := ⟨toyCrypto, rfl⟩

/-! ## C65 -/

/-- The owner is somebody, and `id` is their identifier. -/
def OwnerHas : Owner → PyStr → Prop
  | .client c, id => c.clientId = id
  | .user u, id => ∃ user, u = some user ∧ user.userId = id

/-- Somebody who has the key of the example application and checks the token `t` with clock readings `n1` and `n2` accepts it
and reads from it: it was issued at `stamp` for one hour, to the client `client`, on behalf of `sub`, and for the scopes
`scopes`. -/
def Reads (env : OEnv) (t : PyStr) (n1 n2 stamp : Int) (client sub scopes : PyStr) : Prop :=
  ∃ jwt, Jwt.decodeStr env.cr n1 n2 t exKey (some (py! "HS256")) true .none = .ok jwt ∧
    dget jwt.claims (py! "sub") = .str sub ∧ dget jwt.claims (py! "client_id") = .str client ∧
    dget jwt.claims (py! "scope") = .str scopes ∧ dget jwt.claims (py! "iss") = .str (py! "http://localhost:8000") ∧
    dget jwt.claims (py! "iat") = .int stamp ∧ dget jwt.claims (py! "exp") = .int (stamp + 3600) ∧
    dget jwt.header.data (py! "typ") = .str (py! "at+jwt")

/-- The parts of a successful `create_access_token`. -/
theorem createAccess_ok {env : OEnv} {d : Draw} {client : Client} {owner : Owner} {scopes : List PyStr} {t : PyStr}
    (h : createAccess env d client owner scopes = .ok t) :
    ∃ sub jti jwt, OwnerHas owner sub ∧ 
      Jwt.init env.cr d.stamp2 (.dict (fullDict (accessClaims d.stamp sub jti client scopes))) accessHeader = .ok jwt ∧
      jwt.encode env.cr exKey d.seed = .ok t := by
  unfold createAccess at h
  split at h
  · cases h
  · rename_i sub hs
    split at h
    · cases h
    · rename_i jti hj
      split at h
      · cases h
      · rename_i jwt hjwt
        refine ⟨sub, jti, jwt, ?_, hjwt, h⟩
        cases owner with
        | client c => cases hs; rfl
        | user u =>
          cases u with
          | none => cases hs
          | some u => cases hs; exact ⟨u, rfl, rfl⟩

/-- The claims of an access token, without null members. -/
theorem accessClaims_full (stamp : Int) (sub jti : PyStr) (client : Client) (scopes : List PyStr) :
    fullDict (accessClaims stamp sub jti client scopes) = accessClaims stamp sub jti client scopes := rfl

/-- The keys of the claims differ, and the values are texts and numbers. -/
theorem accessClaims_wf (stamp : Int) (sub jti : PyStr) (client : Client) (scopes : List PyStr) :
    Dict.Ok (accessClaims stamp sub jti client scopes) ∧ (Val.dict (accessClaims stamp sub jti client scopes)).Wf := by
  have hok : Dict.Ok (accessClaims stamp sub jti client scopes) := by
    simp [Dict.Ok, Dict.keys, accessClaims]
  refine ⟨hok, hok, wfD_iff.mpr ?_⟩
  intro kv hkv
  simp only [accessClaims, List.mem_cons, List.not_mem_nil, or_false] at hkv
  rcases hkv with rfl | rfl | rfl | rfl | rfl | rfl | rfl <;> trivial

/-- Header and claims of an access token. -/
theorem accessJwt {env : OEnv} {now stamp : Int} {sub jti : PyStr} {client : Client} {scopes : List PyStr} {jwt : Jwt}
    (h : Jwt.init env.cr now (.dict (fullDict (accessClaims stamp sub jti client scopes))) accessHeader = .ok jwt) :
    jwt.claims = accessClaims stamp sub jti client scopes ∧
      jwt.header.data = [(py! "alg", .str (py! "HS256")), (py! "typ", .str (py! "at+jwt"))] ∧
      (Val.dict jwt.header.data).Wf := by
  obtain ⟨hh, hc, -⟩ := jwtInit_ok.mp h
  obtain ⟨c', e, -, hc', -⟩ := claimsInit_ok.mp hc
  cases e
  obtain ⟨hd, e, h6, -⟩ := headerInit_ok.mp hh
  cases e
  have h7 : jwt.header.data = [(py! "alg", .str (py! "HS256")), (py! "typ", .str (py! "at+jwt"))] := h6
  refine ⟨hc', h7, ?_⟩
  rw [h7]
  refine ⟨by simp, wfD_iff.mpr ?_⟩
  intro kv hkv
  simp only [List.mem_cons, List.not_mem_nil, or_false] at hkv
  rcases hkv with rfl | rfl <;> trivial

/-- C65: every access token of the example application is accepted with its key during one hour, and names the owner, the client
and the scopes for which it was created. -/
theorem C65_content (env : OEnv) (hl : FloatLaws env.cr.fe) (d : Draw) (s s' : Store) (client : Client) (owner : Owner)
    (scopes : List PyStr) (t : PyStr) (h : exOp env d s (.createAccess client owner scopes) = (s', .ok t)) :
    ∃ sub, OwnerHas owner sub ∧
      ∀ n1 n2, d.stamp ≤ n1 → n1 < d.stamp + 3600 → d.stamp ≤ n2 → n2 < d.stamp + 3600 →
        Reads env t n1 n2 d.stamp client.clientId sub (joinWith [32] scopes) := by
  have h : createAccess env d client owner scopes = .ok t := liftRes_eq_ok (congrArg Prod.snd h)
  obtain ⟨sub, jti, jwt, ho, hi, he⟩ := createAccess_ok h
  obtain ⟨hc, hh, hwh⟩ := accessJwt hi
  obtain ⟨hok, hwf⟩ := accessClaims_wf d.stamp sub jti client scopes
  refine ⟨sub, ho, ?_⟩
  intro n1 n2 h1 h2 h3 h4
  have win : ∀ n, d.stamp ≤ n → n < d.stamp + 3600 → InWindow n (accessClaims d.stamp sub jti client scopes) := by
    intro n ha hb
    constructor
    · intro i hi _; cases hi; exact hb
    · intro i hi _; cases hi; exact ha
    · intro i hi; cases hi
  rw [accessClaims_full] at hi
  obtain ⟨t', ht, hhd, hcl, -⟩ := C28_jwt_roundtrip_partial env.cr hl d.stamp2 _ hok _ jwt hi
    ⟨py! "sub", by intro e; cases e⟩ (hc ▸ hwf) hwh exKey exKey d.seed t he (C19_oct_pair _ _) (fun _ _ => rfl)
    (some (py! "HS256")) (Or.inr ⟨_, rfl, by rw [hh]; rfl⟩) n1 n2 (win n1 h1 h2) (win n2 h3 h4)
  refine ⟨t', ht, ?_⟩
  rw [hhd, hh]
  simp only [hcl]
  exact ⟨rfl, rfl, rfl, rfl, rfl, rfl, rfl⟩

/-- C65: outside of this hour it is not accepted. -/
theorem C65_expires (env : OEnv) (hl : FloatLaws env.cr.fe) (d : Draw) (s s' : Store) (client : Client) (owner : Owner)
    (scopes : List PyStr) (t : PyStr) (h : exOp env d s (.createAccess client owner scopes) = (s', .ok t))
    (h0 : 0 < d.stamp) (n1 n2 : Int) (alg : Option PyStr) (halg : alg = none ∨ alg = some (py! "HS256")) (opts : Val)
    (jwt : Jwt) (hd : Jwt.decodeStr env.cr n1 n2 t exKey alg true opts = .ok jwt) :
    d.stamp ≤ n1 ∧ n1 < d.stamp + 3600 ∧ d.stamp ≤ n2 ∧ n2 < d.stamp + 3600 := by
  have h : createAccess env d client owner scopes = .ok t := liftRes_eq_ok (congrArg Prod.snd h)
  obtain ⟨sub, jti, jwt', -, hi, he⟩ := createAccess_ok h
  obtain ⟨hc, hh, hwh⟩ := accessJwt hi
  obtain ⟨hok, hwf⟩ := accessClaims_wf d.stamp sub jti client scopes
  obtain ⟨hcl, -⟩ := jwt_decoded env.cr hl d.stamp2 _ _ jwt' hi (hc ▸ hwf) hwh exKey exKey d.seed t he (C19_oct_pair _ _)
    (fun _ _ => rfl) alg (by
      rcases halg with h | h
      · exact Or.inl h
      · exact Or.inr ⟨_, h, by rw [hh]; rfl⟩) n1 n2 opts jwt hd
  have hw : InWindow n1 jwt.claims ∧ InWindow n2 jwt.claims := by
    unfold Jwt.decodeStr at hd
    cases hb : utf8Encode t with
    | error e => rw [hb] at hd; cases hd
    | ok b =>
      rw [hb, ok_bind] at hd
      exact ⟨(decode_claims hd).2.1, (decode_claims hd).2.2.1⟩
  rw [hcl, hc] at hw
  exact ⟨hw.1.iat _ rfl (by omega), hw.1.exp _ rfl (by omega), hw.2.iat _ rfl (by omega), hw.2.exp _ rfl (by omega)⟩

/-- The scopes can be read off the text in the token. -/
theorem words_join (scopes : List PyStr) (h : ∀ s ∈ scopes, s ≠ [] ∧ ∀ c ∈ s, isPySpace c = false) :
    Words (joinWith [32] scopes) scopes := by
  induction scopes with
  | nil => exact .nil
  | cons s l ih =>
    obtain ⟨h1, h2⟩ := h s (by simp)
    cases l with
    | nil => exact .last s h1 h2
    | cons s' l =>
      have := Words.word s 32 _ _ h1 h2 (by decide) (ih (fun x hx => h x (List.mem_cons_of_mem _ hx)))
      simpa [joinWith] using this

/-- C65 over all histories of the example application: what a resource server reads from an access token that was issued for a
user has been authorized: the user named in the token has authorized the client named in the token, for all scopes named in
the token. -/
theorem C65_authorized (env : OEnv) (hl : FloatLaws env.cr.fe) (table : Hooks) (hb : Benign table) (calls : Nat → Call)
    (s s' : Store) (h0 : s.codes = []) (h1 : s.refresh = []) (pre post : List Step) (i : Nat) (c : Client) (u : Option User)
    (scopes : List PyStr) (t : PyStr)
    (hist : History env table calls (pre ++ (i, ⟨.createAccess c (.user u) scopes, .ok t⟩) :: post))
    (hrun : ExRun env s (pre ++ (i, ⟨.createAccess c (.user u) scopes, .ok t⟩) :: post) s') :
    ∃ user stamp, u = some user ∧ AuthorizedFor env table calls pre c (some user) scopes ∧
      ∀ n1 n2, stamp ≤ n1 → n1 < stamp + 3600 → stamp ≤ n2 → n2 < stamp + 3600 →
        Reads env t n1 n2 stamp c.clientId user.userId (joinWith [32] scopes) := by
  have ha := C52_example env table hb calls s s' h0 h1 pre post i _ hist hrun c u scopes (Or.inl rfl)
  obtain ⟨m, m', -, ⟨d, hs⟩, -⟩ := run_at hrun
  rcases hs with hs | ⟨⟨n, e⟩, -⟩
  · obtain ⟨sub, ⟨user, rfl, rfl⟩, hr⟩ := C65_content env hl d m m' c (.user u) scopes t hs
    exact ⟨user, d.stamp, rfl, ha, hr⟩
  · cases e

/-- Such a history: an authorization and an exchange of the code; the access token is created in the database after the first
request, and can be read. -/
example : redeems 1 [py! "openid"] (exSim exCalls (exTurn 0 3 0 ++ exTurn 1 13 1)).1 = true ∧
    ∃ t, exOp toyEnv (exDraw 1) exStore (.createAccess exClient.client (.user (some exUser.user)) [py! "openid", py! "email"]) =
      (exStore, .ok t) := by
  refine ⟨by decide +kernel, ?_⟩
  have : (match createAccess toyEnv (exDraw 1) exClient.client (.user (some exUser.user)) [py! "openid", py! "email"] with
    | .ok _ => true | .error _ => false) = true := by decide +kernel
  unfold exOp
  dsimp only
  split at this
  · rename_i t ht
    exact ⟨t, by rw [ht]; rfl⟩
  · cases this

/-- The names of scopes are usually words. -/
example : Words (joinWith [32] [py! "openid", py! "email"]) [py! "openid", py! "email"] := words_join _ (by decide)

/-- A refresh token whose user is gone does not lead to an access token of nobody: the adapter raises. -/
example (env : OEnv) (d : Draw) (s : Store) (c : Client) (scopes : List PyStr) :
    exOp env d s (.createAccess c (.user none) scopes) = (s, .error (.py .attrErr)) := rfl

end Psion.Props
