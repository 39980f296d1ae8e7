import Verif.OAuth.GrantLemmas
import Verif.OAuth.HttpLemmas

/-!
# The token endpoint: lemmas
-/

namespace Psion

open Spec

/-- A client that may use the grant `g` in this request. -/
structure GrantUse (p : Provider) (req : Request) (g : GrantClass) (h : List Ev) (c : Client) : Prop where
  mem : g ∈ p.grants
  type : Dict.get req.data (py! "grant_type") = some (grantName g)
  registered : grantName g ∈ c.grantTypes
  auth : Authenticated req (grantMethods g) h c

theorem authenticated_mono {req : Request} {m : Option (List PyStr)} {h h' : List Ev} {c : Client}
    (H : Authenticated req m h c) (hs : h ⊆ h') : Authenticated req m h' c := by
  obtain ⟨a, id, h1, h2⟩ := H
  exact ⟨a, id, hs h1, h2⟩

theorem GrantUse.mono {p : Provider} {req : Request} {g : GrantClass} {h h' : List Ev} {c : Client}
    (H : GrantUse p req g h c) (hs : h ⊆ h') : GrantUse p req g h' c :=
  ⟨H.mem, H.type, H.registered, authenticated_mono H.auth hs⟩

/-- What the token endpoint may do. -/
def TokenOp (env : OEnv) (p : Provider) (req : Request) (h : List Ev) : Op → Prop
  | .createAccess c owner scopes => Justified env p req h c owner scopes
  | .createRefresh c u scopes => py! "refresh_token" ∈ c.grantTypes ∧ Justified env p req h c (.user u) scopes
  | .getCode v | .deleteCode v => ∃ code c, Dict.get req.data (py! "code") = some code ∧ v = .str code ∧
      GrantUse p req .authorizationCode h c
  | .getRefresh t => ∃ c, Dict.get req.data (py! "refresh_token") = some t ∧ GrantUse p req .refreshToken h c
  | .saveCode .. | .revoke .. => False
  | _ => True

/-- How a token response comes about. -/
def TokenDone (env : OEnv) (table : Hooks) (p : Provider) (req : Request) (h : List Ev)
    (token : Dict PyStr Val) : Prop :=
  ∃ g c, GrantUse p req g h c ∧
    match g with
    | .authorizationCode => CodeDone env p.cfg table (Dict.del req.data (py! "grant_type")) c h token ∧
        ∃ code, Dict.get req.data (py! "code") = some code ∧ EndsDeleted code h
    | .clientCredentials => CredentialsDone p.cfg (Dict.del req.data (py! "grant_type")) c h token
    | .refreshToken => RefreshDone p.cfg (Dict.del req.data (py! "grant_type")) c h token

/-- Exceptions of the grants at the token endpoint. -/
def TokenRaise (cfg : Config) (table : Hooks) (req : Request) (h : List Ev) (e : OExc) : Prop :=
  (∃ o, (⟨o, .error e⟩ : Ev) ∈ h) ∨
    (∃ acc, HookRaises requestKeys (tokenRequestHooks table (Dict.del req.data (py! "grant_type"))) acc h e) ∨
    (∃ code ac valid id c user access refresh, Dict.get req.data (py! "code") = some code ∧ FoundCode h (.str code) ac ∧
      FoundClient h id c ∧ (⟨.createAccess c (.user (some user)) ac.scopes, .ok access⟩ : Ev) ∈ h ∧
      HookRaises responseKeys (tokenResponseHooks table valid c user)
        (createToken cfg access refresh (some ac.scopes)) h e) ∨
    (∃ v, Dict.get req.data (py! "code_verifier") = some v ∧ (¬ ∀ c ∈ v, c < 128) ∧ e = .py .unicodeEncode) ∨
    (∃ id c v, FoundClient h id c ∧ ScopeArg v ∧ c.allowedScopes v = .error e) ∨
    (Dict.get req.data (py! "grant_type") = some (py! "authorization_code") ∧
      Dict.get req.data (py! "code") = none ∧ e = .py .keyErr) ∨
    (∃ x, e = .py x ∧ getBasicAuthorization req.headers = .error x)

/-- The way into a token response that is not an error. -/
def TokenOk (env : OEnv) (table : Hooks) (p : Provider) (req : Request) (h : List Ev) (r : Response) : Prop :=
  ∃ token, TokenDone env table p req h token ∧ jsonResponse env.cr.fe 200 noStoreHeaders (.dict token) = .ok r

theorem grantOf_type (env : OEnv) (cfg : Config) (table : Hooks) (g : GrantClass) :
    (grantOf env cfg table g).grantType = some (grantName g) := by
  cases g <;> rfl

theorem grantOf_methods (env : OEnv) (cfg : Config) (table : Hooks) (g : GrantClass) :
    (grantOf env cfg table g).authMethods = grantMethods g := by
  cases g <;> rfl

theorem validateGrantType_ok {env : OEnv} {table : Hooks} {p : Provider} {gt : Option PyStr} {grant : Grant}
    (h : validateGrantType (p.objects env table) gt = .ok grant) :
    ∃ g ∈ p.grants, gt = some (grantName g) ∧ grant = grantOf env p.cfg table g := by
  unfold validateGrantType at h
  split at h
  · split at h
    · rename_i g hg
      cases h
      have h1 := List.find?_some hg
      have h2 := List.mem_of_find?_eq_some hg
      unfold Provider.objects at h2
      obtain ⟨k, hk, rfl⟩ := List.mem_map.mp h2
      rw [decide_eq_true_eq, grantOf_type] at h1
      exact ⟨k, hk, h1.symm, rfl⟩
    · cases h
  · cases h

theorem validateGrantType_error {grants : List Grant} {gt : Option PyStr} {e : OExc}
    {data : Dict PyStr PyStr} (hgt : Dict.get data (py! "grant_type") = gt)
    (h : validateGrantType grants gt = .error e) : ∃ x, e = .oauth x ∧ LibErr data x := by
  unfold validateGrantType at h
  split at h
  · split at h
    · cases h
    · cases h
      refine ⟨_, rfl, rfl, rfl, rfl, Or.inl rfl, ?_⟩
      rintro t ⟨⟩ ch hch
      simp only [List.mem_append] at hch
      rcases hch with (hch | hch) | hch
      · exact Or.inl ((by decide : ∀ ch ∈ py! "Unsupported grant_type \"", ch < 128) ch hch)
      · exact Or.inr ⟨_, _, hgt, hch⟩
      · exact Or.inl ((by decide : ∀ ch ∈ py! "\".", ch < 128) ch hch)
  · cases h; exact ⟨_, rfl, libErr_fixed _ _ _ (by decide)⟩

theorem del_get {data : Dict PyStr PyStr} {k k' v : PyStr} (h : Dict.get (Dict.del data k) k' = some v) :
    Dict.get data k' = some v := by
  by_cases hk : k' = k
  · subst hk
    have : Dict.get (Dict.del data k') k' = none := by
      rw [Dict.get_eq_none_iff]
      intro hm
      unfold Dict.del Dict.keys at hm
      obtain ⟨kv, hkv, rfl⟩ := List.mem_map.mp hm
      have := (List.mem_filter.mp hkv).2
      simp at this
    rw [this] at h; cases h
  · rw [Dict.get_del _ hk] at h
    exact h

theorem libErr_del {data : Dict PyStr PyStr} {k : PyStr} {x : OErr} (h : LibErr (Dict.del data k) x) :
    LibErr data x := libErr_mono h (fun _ _ hk => ⟨_, del_get hk⟩)

section del

variable (data : Dict PyStr PyStr)

theorem del_code : Dict.get (Dict.del data (py! "grant_type")) (py! "code") = Dict.get data (py! "code") :=
  Dict.get_del _ (by decide)

theorem del_uri : Dict.get (Dict.del data (py! "grant_type")) (py! "redirect_uri") =
    Dict.get data (py! "redirect_uri") := Dict.get_del _ (by decide)

theorem del_verifier : Dict.get (Dict.del data (py! "grant_type")) (py! "code_verifier") =
    Dict.get data (py! "code_verifier") := Dict.get_del _ (by decide)

theorem del_refresh : Dict.get (Dict.del data (py! "grant_type")) (py! "refresh_token") =
    Dict.get data (py! "refresh_token") := Dict.get_del _ (by decide)

theorem del_scope : Dict.get (Dict.del data (py! "grant_type")) (py! "scope") =
    Dict.get data (py! "scope") := Dict.get_del _ (by decide)

theorem codeJustifies_del {env : OEnv} {h : List Ev} {c : Client} {u : User} {sc : List PyStr} :
    CodeJustifies env (Dict.del data (py! "grant_type")) h c u sc ↔ CodeJustifies env data h c u sc := by
  unfold CodeJustifies
  rw [del_code, del_uri, del_verifier]

theorem credentialsJustify_del {cfg : Config} {c : Client} {sc : List PyStr} :
    CredentialsJustify cfg (Dict.del data (py! "grant_type")) c sc ↔ CredentialsJustify cfg data c sc := by
  unfold CredentialsJustify
  rw [del_scope]

theorem refreshJustifies_del {cfg : Config} {h : List Ev} {c : Client} {u : Option User} {sc : List PyStr} :
    RefreshJustifies cfg (Dict.del data (py! "grant_type")) h c u sc ↔ RefreshJustifies cfg data h c u sc := by
  unfold RefreshJustifies
  rw [del_scope, del_refresh]

end del

theorem tokenOp_quiet {env : OEnv} {p : Provider} {req : Request} : ∀ (h : List Ev) (o : Op),
    touchesStore o = false → TokenOp env p req h o := by
  intro h o ho
  cases o <;> first | trivial | cases ho

/-- Rule for the body of the token endpoint. -/
theorem wpp_tokenBody {env : OEnv} {table : Hooks} (hb : Benign table) {p : Provider} {req : Request} :
    WpP (fun _ _ => True) (TokenOp env p req) (TokenOk env table p req)
      (fun h e => (∃ x, e = .oauth x ∧ LibErr req.data x) ∨ TokenRaise p.cfg table req h e ∨
        ∃ token, TokenDone env table p req h token ∧
          liftRes (jsonResponse env.cr.fe 200 noStoreHeaders (.dict token)) = .error e)
      [] (tokenBody env (p.objects env table) req) := by
  unfold tokenBody
  dsimp only
  rw [wpp_ite]
  refine ⟨fun _ => Or.inl ⟨_, rfl, libErr_fixed _ _ _ (by decide)⟩, fun _ => ?_⟩
  rw [wpp_bind, wpp_lift, post_iff]
  refine ⟨?_, fun e he => Or.inl (validateGrantType_error rfl he)⟩
  intro grant hgrant
  obtain ⟨g, hg, hgt, rfl⟩ := validateGrantType_ok hgrant
  rw [wpp_bind, grantOf_methods, grantOf_type]
  refine wpp_authenticate (fun _ _ => trivial) ?_ ?_ ?_
  · intro m id c _ hpres hm hallow
    have hauth : Authenticated req (grantMethods g) ([] ++ [(⟨.findClient id, .ok (some c)⟩ : Ev)]) c :=
      ⟨m, id, by simp [FoundClient], hpres, hm, hallow⟩
    have hfound : FoundClient ([] ++ [(⟨.findClient id, .ok (some c)⟩ : Ev)]) id c := by simp [FoundClient]
    generalize ([] ++ [(⟨.findClient id, .ok (some c)⟩ : Ev)]) = h0 at hauth hfound ⊢
    rw [wpp_ite]
    refine ⟨fun _ => Or.inl ⟨_, rfl, libErr_plain _ _⟩, fun hreg => ?_⟩
    have huse : GrantUse p req g h0 c := ⟨hg, hgt, Decidable.not_not.mp hreg, hauth⟩
    have hfin : ∀ h' token, TokenDone env table p req h' token →
        WpP (fun _ _ => True) (TokenOp env p req) (TokenOk env table p req)
          (fun h e => (∃ x, e = .oauth x ∧ LibErr req.data x) ∨ TokenRaise p.cfg table req h e ∨
            ∃ token, TokenDone env table p req h token ∧
              liftRes (jsonResponse env.cr.fe 200 noStoreHeaders (.dict token)) = .error e)
          h' (P.lift (liftRes (jsonResponse env.cr.fe 200 noStoreHeaders (.dict token)))) := by
      intro h' token hd
      rw [wpp_lift, post_liftRes]
      refine ⟨fun r hr => ⟨token, hd, hr⟩, fun e he => Or.inr (Or.inr ⟨token, hd, by rw [he]; rfl⟩)⟩
    have hgf : ∀ h' e, h0 ⊆ h' → GrantFail (Dict.del req.data (py! "grant_type")) c h' e → (∃ x, e = .oauth x ∧ LibErr req.data x) ∨ TokenRaise p.cfg table req h' e ∨
            ∃ token, TokenDone env table p req h' token ∧
              liftRes (jsonResponse env.cr.fe 200 noStoreHeaders (.dict token)) = .error e := by
      rintro h' e hs (⟨x, rfl, hx⟩ | hx | ⟨v, hv⟩)
      · exact Or.inl ⟨x, rfl, libErr_del hx⟩
      · exact Or.inr (Or.inl (Or.inl hx))
      · exact Or.inr (Or.inl (Or.inr (Or.inr (Or.inr (Or.inr (Or.inl ⟨id, c, v, hs hfound, hv⟩))))))
    rw [wpp_bind]
    cases g with
    | authorizationCode =>
      change WpP _ _ _ _ _ (codeToken env p.cfg table (Dict.del req.data (py! "grant_type")) c)
      refine wpp_codeToken hb tokenOp_quiet ?_ ?_ ?_ ?_ ?_ ?_ ?_
      · intro h' code hs hc
        rw [del_code] at hc
        exact ⟨code, c, hc, rfl, huse.mono hs⟩
      · intro h' code hs hc
        rw [del_code] at hc
        exact ⟨code, c, hc, rfl, huse.mono hs⟩
      · intro h' u sc hs hj
        exact ⟨.authorizationCode, hg, hgt, huse.registered, authenticated_mono hauth hs, u, rfl,
          (codeJustifies_del _).mp hj⟩
      · intro h' u sc hs hj hr
        exact ⟨hr, .authorizationCode, hg, hgt, huse.registered, authenticated_mono hauth hs, u, rfl,
          (codeJustifies_del _).mp hj⟩
      · intro h' token code hs hd hc he
        rw [del_code] at hc
        exact hfin _ _ ⟨.authorizationCode, c, huse.mono hs, hd, code, hc, he⟩
      · intro h' e code hs hf hc he
        rcases hf with ⟨x, rfl, hx⟩ | hx | hx | ⟨cd, ac, v, u, a, r, hx1, hx2, hx4, hx3⟩ | hx
        · exact Or.inl ⟨x, rfl, libErr_del hx⟩
        · exact Or.inr (Or.inl (Or.inl hx))
        · exact Or.inr (Or.inl (Or.inr (Or.inl hx)))
        · rw [del_code] at hx1
          exact Or.inr (Or.inl (Or.inr (Or.inr (Or.inl ⟨cd, ac, v, id, c, u, a, r, hx1, hx2, hs hfound, hx4, hx3⟩))))
        · rw [del_verifier] at hx
          exact Or.inr (Or.inl (Or.inr (Or.inr (Or.inr (Or.inl hx)))))
      · intro h' hs hc
        rw [del_code] at hc
        exact Or.inr (Or.inl (Or.inr (Or.inr (Or.inr (Or.inr (Or.inr (Or.inl ⟨hgt, hc, rfl⟩)))))))
    | clientCredentials =>
      change WpP _ _ _ _ _ (credentialsToken env p.cfg (Dict.del req.data (py! "grant_type")) c)
      refine wpp_credentialsToken ?_ ?_ hgf
      · intro sc hj
        exact ⟨.clientCredentials, hg, hgt, huse.registered, hauth, rfl, (credentialsJustify_del _).mp hj⟩
      · intro h' token hs hd
        exact hfin _ _ ⟨.clientCredentials, c, huse.mono hs, hd⟩
    | refreshToken =>
      change WpP _ _ _ _ _ (refreshToken env p.cfg (Dict.del req.data (py! "grant_type")) c)
      refine wpp_refreshToken tokenOp_quiet ?_ ?_ ?_ ?_ hgf
      · intro t ht
        rw [del_refresh] at ht
        exact ⟨c, ht, huse⟩
      · intro h' u sc hs hj
        exact ⟨.refreshToken, hg, hgt, huse.registered, authenticated_mono hauth hs, u, rfl,
          (refreshJustifies_del _).mp hj⟩
      · intro h' u sc hs hj hr
        exact ⟨hr, .refreshToken, hg, hgt, huse.registered, authenticated_mono hauth hs, u, rfl,
          (refreshJustifies_del _).mp hj⟩
      · intro h' token hs hd
        exact hfin _ _ ⟨.refreshToken, c, huse.mono hs, hd⟩
  · rintro h' e - (⟨d, hd, rfl, h1, h2⟩ | ⟨x, rfl, hx⟩)
    · exact Or.inl ⟨_, rfl, rfl, rfl, rfl, h1, fun t ht ch hch => Or.inl (h2 t ht ch hch)⟩
    · exact Or.inr (Or.inl (Or.inr (Or.inr (Or.inr (Or.inr (Or.inr (Or.inr ⟨x, rfl, hx⟩)))))))
  · intro id e _
    exact Or.inr (Or.inl (Or.inl ⟨_, List.mem_append_right _ List.mem_cons_self⟩))

/-- An error response of the token endpoint. -/
def TokenErr (env : OEnv) (table : Hooks) (p : Provider) (req : Request) (h : List Ev) (r : Response) : Prop :=
  ∃ x : OErr, (LibErr req.data x ∨ TokenRaise p.cfg table req h (.oauth x)) ∧
    jsonResponse env.cr.fe 400 (Dict.update x.headers noStoreHeaders) (.dict (ndictVal x.dump)) = .ok r

/-- Rule for the token endpoint. -/
theorem wpp_token {env : OEnv} {table : Hooks} (hb : Benign table) (p : Provider) (req : Request) :
    WpP (fun _ _ => True) (TokenOp env p req)
      (fun h r => TokenOk env table p req h r ∨ TokenErr env table p req h r)
      (fun h e => ∃ x, e = .py x ∧ (TokenRaise p.cfg table req h e ∨
        (∃ token, TokenDone env table p req h token ∧
          jsonResponse env.cr.fe 200 noStoreHeaders (.dict token) = .error x) ∨
        ∃ y : OErr, (LibErr req.data y ∨ TokenRaise p.cfg table req h (.oauth y)) ∧
          jsonResponse env.cr.fe 400 (Dict.update y.headers noStoreHeaders) (.dict (ndictVal y.dump)) = .error x))
      [] (p.token env table req) := by
  unfold Provider.token tokenEndpoint
  rw [wpp_catch]
  refine wpp_mono (wpp_tokenBody hb) (fun _ _ h => h) (fun _ _ h => Or.inl h) ?_
  intro h e he
  cases e with
  | oauth y =>
    dsimp only [caught]
    have hy : LibErr req.data y ∨ TokenRaise p.cfg table req h (.oauth y) := by
      rcases he with ⟨_, he, hl⟩ | he | ⟨token, hd, ht⟩
      · cases he; exact Or.inl hl
      · exact Or.inr he
      · revert ht
        cases jsonResponse env.cr.fe 200 noStoreHeaders (.dict token) <;> intro ht <;> cases ht
    rw [wpp_lift, post_liftRes]
    exact ⟨fun r hr => Or.inr ⟨y, hy, hr⟩, fun x hx => ⟨x, rfl, Or.inr (Or.inr ⟨y, hy, hx⟩)⟩⟩
  | py x =>
    rcases he with ⟨_, he, -⟩ | he | ⟨token, hd, ht⟩
    · cases he
    · exact ⟨x, rfl, Or.inl he⟩
    · refine ⟨x, rfl, Or.inr (Or.inl ⟨token, hd, ?_⟩)⟩
      revert ht
      cases jsonResponse env.cr.fe 200 noStoreHeaders (.dict token) with
      | ok _ => intro ht; cases ht
      | error y => intro ht; cases ht; rfl

/-- Every operation of the token endpoint is allowed. -/
theorem token_op {env : OEnv} {table : Hooks} (hb : Benign table) {p : Provider} {req : Request}
    {pre post : List Ev} {ev : Ev} (h : Partial (p.token env table req) (pre ++ ev :: post)) :
    TokenOp env p req pre ev.op := wpp_partial h (wpp_token hb p req) answers_true rfl

/-- A token request with a code either stops at the lookup of the client or ends with the deletion of the code. -/
theorem wpp_token_deletes {env : OEnv} {table : Hooks} (hb : Benign table) {p : Provider} {req : Request}
    {code : PyStr} (hgt : Dict.get req.data (py! "grant_type") = some (py! "authorization_code"))
    (hcode : Dict.get req.data (py! "code") = some code) :
    WpP (fun _ _ => True) (fun _ _ => True)
      (fun h _ => EndsDeleting code h) (fun h _ => EndsDeleting code h ∨ h = [] ∨ ∃ id a, h = [⟨.findClient id, a⟩])
      [] (tokenBody env (p.objects env table) req) := by
  unfold tokenBody
  dsimp only
  rw [wpp_ite]
  refine ⟨fun _ => Or.inr (Or.inl rfl), fun _ => ?_⟩
  rw [wpp_bind, wpp_lift, post_iff]
  refine ⟨?_, fun e he => Or.inr (Or.inl rfl)⟩
  intro grant hgrant
  obtain ⟨g, hg, hgt', rfl⟩ := validateGrantType_ok hgrant
  rw [hgt] at hgt'
  have : g = .authorizationCode := by
    cases g
    · rfl
    · simp [grantName] at hgt'
    · simp [grantName] at hgt'
  subst this
  rw [wpp_bind]
  refine wpp_authenticate (fun _ _ => trivial) ?_ ?_ ?_
  · intro m id c _ _ _ _
    rw [wpp_ite]
    refine ⟨fun _ => Or.inr (Or.inr ⟨id, _, rfl⟩), fun _ => ?_⟩
    rw [wpp_bind]
    change WpP _ _ _ _ _ (codeToken env p.cfg table (Dict.del req.data (py! "grant_type")) c)
    refine wpp_codeToken hb (fun _ _ _ => trivial) (fun _ _ _ _ => trivial) (fun _ _ _ _ => trivial)
      (fun _ _ _ _ _ => trivial) (fun _ _ _ _ _ _ => trivial) ?_ ?_ ?_
    · intro h' token code' _ _ hc he
      rw [del_code, hcode] at hc
      cases hc
      rw [wpp_lift, post_liftRes]
      exact ⟨fun _ _ => he.deleting, fun _ _ => Or.inl he.deleting⟩
    · intro h' e code' _ _ hc he
      rw [del_code, hcode] at hc
      cases hc
      exact Or.inl he
    · intro h' _ hc
      rw [del_code, hcode] at hc
      cases hc
  · rintro h' e (rfl | ⟨id, r, rfl⟩) _
    · exact Or.inr (Or.inl rfl)
    · exact Or.inr (Or.inr ⟨id, r, rfl⟩)
  · intro id e _
    exact Or.inr (Or.inr ⟨id, _, rfl⟩)

end Psion
