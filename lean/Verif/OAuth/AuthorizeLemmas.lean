import Verif.OAuth.GrantLemmas
import Verif.OAuth.TokenLemmas

/-!
# The authorization endpoint: lemmas
-/

namespace Psion

open Spec

variable {A : List Ev → Ev → Prop} {S : List Ev → Op → Prop}

/-- The hooks of the authorization request, applied. -/
def authRequestHooks (hooks : Hooks) (data : Dict PyStr PyStr) :
    List (Dict PyStr Val → P (Option (Dict PyStr Val))) :=
  hooks.authorizationRequest.map (fun h _ => h data)

/-- The hooks of the authorization response, applied. -/
def authResponseHooks (hooks : Hooks) (code : PyStr) (data : Dict PyStr Val) (client : Client) (user : User) :
    List (Dict PyStr Val → P (Option (Dict PyStr Val))) :=
  hooks.authorizationResponse.map (fun h _ => h code data client user)

/-- The members that hooks must leave alone in an authorization request. -/
def authKeys : List PyStr :=
  [py! "code_challenge", py! "code_challenge_method", py! "redirect_uri", py! "scopes", py! "state"]

/-- The members that hooks must leave alone in an authorization response. -/
def authResponseKeys : List PyStr := [py! "code", py! "state"]

theorem benign_authRequest {hooks : Hooks} (hb : Benign hooks) (data : Dict PyStr PyStr) :
    ∀ f ∈ authRequestHooks hooks data, ∀ acc, BenignHook authKeys (f acc) := by
  intro f hf acc
  obtain ⟨g, hg, rfl⟩ := List.mem_map.mp hf
  exact hb.authorizationRequest g hg data

theorem benign_authResponse {hooks : Hooks} (hb : Benign hooks) (code : PyStr) (data : Dict PyStr Val) (client : Client)
    (user : User) : ∀ f ∈ authResponseHooks hooks code data client user, ∀ acc, BenignHook authResponseKeys (f acc) := by
  intro f hf acc
  obtain ⟨g, hg, rfl⟩ := List.mem_map.mp hf
  exact hb.authorizationResponse g hg code data client user

/-- An error raised by the library once the redirect URI is known to be registered. -/
structure AuthLibErr (data : Dict PyStr PyStr) (x : OErr) : Prop where
  kind : x.kind ≠ .fatal
  error : x.error = some x.kind.code
  uri : x.uri = none
  state : x.state = Dict.get data (py! "state")
  headers : x.headers = []
  text : ∀ d, x.description = some d → ∀ ch ∈ d, ch < 128 ∨ ∃ k v, Dict.get data k = some v ∧ ch ∈ v

theorem authLibErr_mk {data : Dict PyStr PyStr} {kind : ErrKind} (hk : kind ≠ .fatal) {d : PyStr}
    (h : ∀ ch ∈ d, ch < 128 ∨ ∃ k v, Dict.get data k = some v ∧ ch ∈ v) :
    AuthLibErr data (.mk' kind (some d) (Dict.get data (py! "state"))) :=
  ⟨hk, rfl, rfl, rfl, rfl, by rintro t ⟨⟩; exact h⟩

theorem authLibErr_fixed {data : Dict PyStr PyStr} {kind : ErrKind} (hk : kind ≠ .fatal) {d : PyStr}
    (h : ∀ ch ∈ d, ch < 128) : AuthLibErr data (.mk' kind (some d) (Dict.get data (py! "state"))) :=
  authLibErr_mk hk (fun ch hch => Or.inl (h ch hch))

theorem authLibErr_del {data : Dict PyStr PyStr} {x : OErr} (h : AuthLibErr (Dict.del data (py! "response_type")) x) :
    AuthLibErr data x := by
  refine ⟨h.kind, h.error, h.uri, ?_, h.headers, ?_⟩
  · rw [h.state]
    exact Dict.get_del _ (by decide)
  · intro d hd ch hch
    rcases h.text d hd ch hch with h | ⟨k, v, hk, hv⟩
    · exact Or.inl h
    · exact Or.inr ⟨k, v, del_get hk, hv⟩

/-! ## The grant -/

/-- The parameters of an authorization request after validation. -/
structure AuthParams (data : Dict PyStr PyStr) (d : Dict PyStr Val) : Prop where
  challenge : ∃ ch, Dict.get data (py! "code_challenge") = some ch ∧ 43 ≤ ch.length ∧ ch.length ≤ 128 ∧
    Dict.get d (py! "code_challenge") = some (.str ch)
  method : ∃ m, Dict.get data (py! "code_challenge_method") = some m ∧ (m = py! "plain" ∨ m = py! "S256") ∧
    Dict.get d (py! "code_challenge_method") = some (.str m)
  uri : ∃ uri, Dict.get data (py! "redirect_uri") = some uri ∧ Dict.get d (py! "redirect_uri") = some (.str uri)
  scopes : ∃ text, Dict.get data (py! "scope") = some text ∧ Dict.get d (py! "scopes") = some (strList (splitWs text))
  state : Dict.get d (py! "state") = some (optVal (Dict.get data (py! "state")))

theorem authorizationParams_ok {data : Dict PyStr PyStr} {d : Dict PyStr Val} (h : authorizationParams data = .ok d) :
    AuthParams data d := by
  unfold authorizationParams at h
  dsimp only at h
  split at h
  · cases h
  · rename_i hch
    obtain ⟨ch, hch, -⟩ := blank_eq_false.mp (by simpa using hch)
    rw [hch] at h
    simp only [Option.getD_some] at h
    split at h
    · cases h
    · rename_i hlen
      split at h
      · cases h
      · rename_i m hm
        split at h
        · cases h
        · rename_i hmem
          split at h
          · cases h
          · rename_i hs
            obtain ⟨text, ht, -⟩ := blank_eq_false.mp (by simpa using hs)
            split at h
            · cases h
            · rename_i uri huri
              rw [ht] at h
              cases h
              refine ⟨⟨ch, hch, by omega, by omega, rfl⟩, ⟨m, hm, ?_, rfl⟩, ⟨uri, huri, rfl⟩, ⟨text, ht, rfl⟩, rfl⟩
              have := Decidable.not_not.mp hmem
              simpa [challengeMethods] using this

theorem authorizationParams_error {data : Dict PyStr PyStr} {uri : PyStr}
    (hu : Dict.get data (py! "redirect_uri") = some uri) {e : OExc} (h : authorizationParams data = .error e) :
    ∃ x, e = .oauth x ∧ AuthLibErr data x := by
  unfold authorizationParams at h
  dsimp only at h
  rw [hu] at h
  split at h
  · cases h; exact ⟨_, rfl, authLibErr_fixed (by decide) (by decide)⟩
  · split at h
    · cases h; exact ⟨_, rfl, authLibErr_fixed (by decide) (by decide)⟩
    · split at h
      · cases h; exact ⟨_, rfl, authLibErr_fixed (by decide) (by decide)⟩
      · rename_i m hm
        split at h
        · cases h
          refine ⟨_, rfl, authLibErr_mk (by decide) ?_⟩
          intro ch hch
          simp only [List.mem_append] at hch
          rcases hch with (hch | hch) | hch
          · exact Or.inl ((by decide : ∀ ch ∈ py! "Unknown code challenge \"", ch < 128) ch hch)
          · exact Or.inr ⟨_, _, hm, hch⟩
          · exact Or.inl ((by decide : ∀ ch ∈ py! "\".", ch < 128) ch hch)
        · split at h
          · cases h; exact ⟨_, rfl, authLibErr_fixed (by decide) (by decide)⟩
          · cases h

/-- The response of a successful run of the grant, before it is encoded. -/
structure AuthDone (env : OEnv) (cfg : Config) (hooks : Hooks) (data : Dict PyStr PyStr) (client : Client) (user : User)
    (h : List Ev) (code : PyStr) (valid response : Dict PyStr Val) : Prop where
  params : AuthParams data valid
  scopes : ∃ ws allowed, Dict.get valid (py! "scopes") = some (strList ws) ∧ (∀ s ∈ ws, s ∈ cfg.scopes) ∧
    client.allowedScopes (strList ws) = .ok allowed ∧ ∀ s ∈ ws, s ∈ allowed
  drawn : ∃ choices, (⟨.choices64, .ok choices⟩ : Ev) ∈ h ∧ secretToken choices.val = .ok code
  saved : (⟨.saveCode code valid client user, .ok ()⟩ : Ev) ∈ h
  response : ∃ tr, Exec (runHooks [(py! "code", .str code), (py! "state", dget valid (py! "state"))]
    (authResponseHooks hooks code valid client user)) tr (.ok response) ∧ tr ⊆ h

/-- Exceptions of the application during the grant. -/
def AuthApp (hooks : Hooks) (data : Dict PyStr PyStr) (client : Client) (user : User) (h : List Ev) (e : OExc) : Prop :=
  (∃ o, (⟨o, .error e⟩ : Ev) ∈ h) ∨
    (∃ acc, HookRaises authKeys (authRequestHooks hooks data) acc h e) ∨
    (∃ code valid acc, HookRaises authResponseKeys (authResponseHooks hooks code valid client user) acc h e) ∨
    (∃ v, ScopeArg v ∧ client.allowedScopes v = .error e)

theorem authParams_keys {data : Dict PyStr PyStr} {d d' : Dict PyStr Val} (H : AuthParams data d)
    (hk : ∀ k ∈ authKeys, Dict.get d' k = Dict.get d k) : AuthParams data d' := by
  have h1 := hk (py! "code_challenge") (by decide)
  have h2 := hk (py! "code_challenge_method") (by decide)
  have h3 := hk (py! "redirect_uri") (by decide)
  have h4 := hk (py! "scopes") (by decide)
  have h5 := hk (py! "state") (by decide)
  obtain ⟨a, b, c, d, e⟩ := H
  refine ⟨?_, ?_, ?_, ?_, ?_⟩
  · rw [h1]; exact a
  · rw [h2]; exact b
  · rw [h3]; exact c
  · rw [h4]; exact d
  · rw [h5]; exact e

theorem stateText_optVal (env : OEnv) (o : Option PyStr) : stateText env (optVal o) = o := by
  cases o <;> rfl

/-- The data of a code come from the parameters of the request and the hooks. -/
def AuthHooked (hooks : Hooks) (data : Dict PyStr PyStr) (valid : Dict PyStr Val) : Prop :=
  ∃ d tr, authorizationParams data = .ok d ∧ Exec (runHooks d (authRequestHooks hooks data)) tr (.ok valid)

/-- Rule for the authorization of the code grant. -/
theorem wpp_codeAuthorize {env : OEnv} {cfg : Config} {hooks : Hooks} (hb : Benign hooks) {data : Dict PyStr PyStr}
    {client : Client} {user : User} {uri : PyStr} (hu : Dict.get data (py! "redirect_uri") = some uri) {h : List Ev}
    {Q : List Ev → PyStr → Prop} {E : List Ev → OExc → Prop}
    (hquiet : ∀ h o, touchesStore o = false → S h o)
    (hsave : ∀ h' code valid, h ⊆ h' → AuthParams data valid →
      (∃ ws allowed, Dict.get valid (py! "scopes") = some (strList ws) ∧ (∀ s ∈ ws, s ∈ cfg.scopes) ∧
        client.allowedScopes (strList ws) = .ok allowed ∧ ∀ s ∈ ws, s ∈ allowed) →
      (∃ choices, (⟨.choices64, .ok choices⟩ : Ev) ∈ h' ∧ secretToken choices.val = .ok code) →
      AuthHooked hooks data valid →
      S h' (.saveCode code valid client user))
    (hdone : ∀ h' code valid response, h ⊆ h' → AuthDone env cfg hooks data client user h' code valid response →
      post Q E h' (urlencodeVals env uri response))
    (hlib : ∀ h' x, h ⊆ h' → AuthLibErr data x → E h' (.oauth x))
    (happ : ∀ h' e, h ⊆ h' → AuthApp hooks data client user h' e → E h' e) :
    WpP A S Q E h (codeAuthorize env cfg hooks data client user) := by
  unfold codeAuthorize validateAuthorizationRequest
  rw [wpp_bind, wpp_bind, wpp_lift, post_iff]
  refine ⟨?_, ?_⟩
  rotate_left
  · intro e he
    obtain ⟨x, rfl, hx⟩ := authorizationParams_error hu he
    exact hlib _ _ (fun _ h => h) hx
  intro d hd
  have hp := authorizationParams_ok hd
  have hbr := benign_authRequest hb data
  refine wpp_mono (wpp_self fun pre ev post hpart => hquiet _ _ (runHooks_quiet hbr hpart ev (by simp)))
    (fun _ _ h => h) ?_ ?_
  rotate_left
  · rintro h' e ⟨tr, rfl, hx⟩
    exact happ _ _ (List.subset_append_left _ _)
      (Or.inr (Or.inl ⟨d, hookRaises_mono (runHooks_raises hbr hx) (List.suffix_append _ _).isInfix⟩))
  rintro h' valid ⟨tr, rfl, hx⟩
  have hhook : AuthHooked hooks data valid := ⟨d, tr, hd, hx⟩
  have hp := authParams_keys hp (runHooks_keys hbr hx)
  have hs0 : h ⊆ h ++ tr := List.subset_append_left _ _
  generalize h ++ tr = h1 at hs0 ⊢
  obtain ⟨text, ht, hsc⟩ := hp.scopes
  rw [wpp_bind, item_ok hsc, wpp_lift]
  change WpP A S Q E h1 _
  rw [wpp_bind, wpp_lift, post_iff]
  refine ⟨?_, ?_⟩
  rotate_left
  · intro e he
    rcases validateRequestedScopes_error he with ⟨t, rfl, hch⟩ | he
    · refine hlib _ _ hs0 ?_
      have : stateText env (dget valid (py! "state")) = Dict.get data (py! "state") := by
        unfold dget
        rw [hp.state]
        exact stateText_optVal _ _
      rw [this]
      refine authLibErr_mk (by decide) ?_
      intro ch hc
      rcases hch ch hc with hc | ⟨w, hw, hc⟩
      · exact Or.inl hc
      · exact Or.inr ⟨_, _, ht, mem_splitWs hw ch hc⟩
    · exact happ _ _ hs0 (Or.inr (Or.inr (Or.inr ⟨_, scopeArg_list _, he⟩)))
  intro _ hv
  have hscopes := validateRequestedScopes_ok hv
  have hscopes : ∃ ws allowed, Dict.get valid (py! "scopes") = some (strList ws) ∧ (∀ s ∈ ws, s ∈ cfg.scopes) ∧
      client.allowedScopes (strList ws) = .ok allowed ∧ ∀ s ∈ ws, s ∈ allowed := by
    obtain ⟨a, al, b, c⟩ := hscopes
    exact ⟨_, al, hsc, a, b, c⟩
  rw [wpp_bind, wpp_call]
  refine ⟨hquiet _ _ rfl, ?_, ?_⟩
  rotate_left
  · intro e _
    exact happ _ _ (fun x hx => List.mem_append_left _ (hs0 hx)) (Or.inl ⟨_, List.mem_append_right _ List.mem_cons_self⟩)
  intro choices _
  have hch : (⟨.choices64, .ok choices⟩ : Ev) ∈ h1 ++ [(⟨.choices64, .ok choices⟩ : Ev)] :=
    List.mem_append_right _ List.mem_cons_self
  have hs1 : h ⊆ h1 ++ [(⟨.choices64, .ok choices⟩ : Ev)] := fun x hx => List.mem_append_left _ (hs0 hx)
  generalize h1 ++ [(⟨.choices64, .ok choices⟩ : Ev)] = h2 at hch hs1 ⊢
  have hne : choices.val ≠ [] := by
    intro h
    have := choices.property
    rw [h] at this
    simp at this
  obtain ⟨code, hcode, -⟩ := Props.C10_secret_token choices.val hne
  rw [wpp_bind, hcode, wpp_lift]
  change WpP A S Q E h2 _
  rw [wpp_bind]
  refine wpp_call.mpr ⟨hsave _ _ _ hs1 hp hscopes ⟨choices, hch, hcode⟩ hhook, ?_, ?_⟩
  rotate_left
  · intro e _
    exact happ _ _ (fun x hx => List.mem_append_left _ (hs1 hx)) (Or.inl ⟨_, List.mem_append_right _ List.mem_cons_self⟩)
  intro _ _
  have hsv : (⟨.saveCode code valid client user, .ok ()⟩ : Ev) ∈
      h2 ++ [(⟨.saveCode code valid client user, .ok ()⟩ : Ev)] := List.mem_append_right _ List.mem_cons_self
  have hs2 : h ⊆ h2 ++ [(⟨.saveCode code valid client user, .ok ()⟩ : Ev)] := fun x hx => List.mem_append_left _ (hs1 hx)
  have hch : (⟨.choices64, .ok choices⟩ : Ev) ∈ h2 ++ [(⟨.saveCode code valid client user, .ok ()⟩ : Ev)] :=
    List.mem_append_left _ hch
  generalize h2 ++ [(⟨.saveCode code valid client user, .ok ()⟩ : Ev)] = h3 at hch hsv hs2 ⊢
  rw [wpp_bind]
  have hb' := benign_authResponse hb code valid client user
  refine wpp_mono (wpp_self ?_) (fun _ _ h => h) ?_ ?_
  · intro pre ev post hpart
    exact hquiet _ _ (runHooks_quiet hb' hpart ev (by simp))
  · rintro h' response ⟨tr, rfl, hx⟩
    obtain ⟨uri', hu1, hu2⟩ := hp.uri
    rw [hu] at hu1
    cases hu1
    rw [wpp_bind, item_ok hu2, wpp_lift]
    change WpP A S Q E _ _
    rw [wpp_lift]
    refine hdone _ code valid response (fun x hx => List.mem_append_left _ (hs2 hx)) ?_
    exact ⟨hp, hscopes, ⟨choices, List.mem_append_left _ hch, hcode⟩, List.mem_append_left _ hsv,
      ⟨tr, hx, List.subset_append_right _ _⟩⟩
  · rintro h' e ⟨tr, rfl, hx⟩
    have hr := hookRaises_mono (runHooks_raises hb' hx) (List.suffix_append h3 _).isInfix
    exact happ _ _ (fun x hx => List.mem_append_left _ (hs2 hx)) (Or.inr (Or.inr (Or.inl ⟨code, valid, _, hr⟩)))

/-! ## The endpoint -/

/-- What the authorization endpoint may do. -/
def AuthorizeOp (table : Hooks) (p : Provider) (req : Request) (h : List Ev) : Op → Prop
  | .saveCode code data c u => Authorizes p req h c u data ∧
      (∃ choices, (⟨.choices64, .ok choices⟩ : Ev) ∈ h ∧ secretToken choices.val = .ok code) ∧
      AuthHooked table (Dict.del req.data (py! "response_type")) data
  | .createAccess .. | .createRefresh .. | .getCode _ | .deleteCode _ | .getRefresh _ | .revoke .. => False
  | _ => True

theorem authorizeOp_quiet {table : Hooks} {p : Provider} {req : Request} : ∀ (h : List Ev) (o : Op),
    touchesStore o = false → AuthorizeOp table p req h o := by
  intro h o ho
  cases o <;> first | trivial | cases ho

/-- How a response with a code comes about, before it is encoded as a URL. -/
structure AuthorizeDone (env : OEnv) (table : Hooks) (p : Provider) (req : Request) (h : List Ev) (uri code : PyStr)
    (response : Dict PyStr Val) : Prop where
  registered : RegisteredUri req h uri
  done : ∃ c u valid, Authorizes p req h c u valid ∧ (⟨.saveCode code valid c u, .ok ()⟩ : Ev) ∈ h ∧
    (∃ choices, (⟨.choices64, .ok choices⟩ : Ev) ∈ h ∧ secretToken choices.val = .ok code) ∧
    ∃ tr, Exec (runHooks [(py! "code", .str code), (py! "state", optVal (Dict.get req.data (py! "state")))]
      (authResponseHooks table code valid c u)) tr (.ok response) ∧ tr ⊆ h

/-- Why the authorization endpoint fails. -/
inductive AuthFail (env : OEnv) (table : Hooks) (p : Provider) (req : Request) (h : List Ev) : OExc → Prop
  /-- An error for the error page of the provider. -/
  | fatal (d : PyStr) : (∀ ch ∈ d, ch < 128) → AuthFail env table p req h (.oauth (.fatal (py! "invalid_request") d))
  /-- Nobody is logged in. -/
  | denied (uri : PyStr) : req.user = none → Dict.get req.data (py! "redirect_uri") = some uri →
      AuthFail env table p req h (.oauth (.mk' .accessDenied))
  /-- No grant has the requested response type. -/
  | unsupported (uri rt : PyStr) (x : OErr) : Dict.get req.data (py! "redirect_uri") = some uri →
      Dict.get req.data (py! "response_type") = some rt → (rt = py! "code" → .authorizationCode ∉ p.grants) →
      x.kind = .unsupportedResponseType → AuthLibErr req.data x → AuthFail env table p req h (.oauth x)
  /-- The lookup of the client raised. -/
  | lookup (uri id : PyStr) (e : OExc) : Dict.get req.data (py! "redirect_uri") = some uri →
      (⟨.findClient id, .error e⟩ : Ev) ∈ h → AuthFail env table p req h e
  /-- The library refused the request of a client with a registered redirect URI. -/
  | lib (uri : PyStr) (x : OErr) : RegisteredUri req h uri → AuthLibErr req.data x → AuthFail env table p req h (.oauth x)
  /-- The application raised. -/
  | app (uri id : PyStr) (c : Client) (u : User) (e : OExc) : RegisteredUri req h uri → FoundClient h id c →
      AuthApp table (Dict.del req.data (py! "response_type")) c u h e → AuthFail env table p req h e
  /-- The redirect URI cannot be built. -/
  | encode (uri code : PyStr) (response : Dict PyStr Val) (e : OExc) :
      AuthorizeDone env table p req h uri code response →
      (urlencodeVals env uri response = .error e ∨
        ∃ url x, urlencodeVals env uri response = .ok url ∧ redirectResponse url [] = .error x ∧ e = .py x) →
      AuthFail env table p req h e

/-- The way into a response with a code. -/
def AuthorizeOk (env : OEnv) (table : Hooks) (p : Provider) (req : Request) (h : List Ev) (r : Response) : Prop :=
  ∃ uri code response url, AuthorizeDone env table p req h uri code response ∧
    urlencodeVals env uri response = .ok url ∧ redirectResponse url [] = .ok r

/-- The required parameters. -/
theorem validateRequest_ok {data : Dict PyStr PyStr} (h : validateRequest data = .ok ()) :
    ∃ uri id rt, Dict.get data (py! "redirect_uri") = some uri ∧ Dict.get data (py! "client_id") = some id ∧
      Dict.get data (py! "response_type") = some rt := by
  unfold validateRequest at h
  split at h
  · cases h
  · split at h
    · cases h
    · rename_i h1
      split at h
      · cases h
      · rename_i h2
        split at h
        · cases h
        · rename_i h3
          obtain ⟨uri, hu, -⟩ := blank_eq_false.mp (by simpa using h1)
          obtain ⟨id, hi, -⟩ := blank_eq_false.mp (by simpa using h2)
          obtain ⟨rt, hr, -⟩ := blank_eq_false.mp (by simpa using h3)
          exact ⟨uri, id, rt, hu, hi, hr⟩

theorem validateRequest_error {data : Dict PyStr PyStr} {e : OExc} (h : validateRequest data = .error e) :
    ∃ d, (∀ ch ∈ d, ch < 128) ∧ e = .oauth (.fatal (py! "invalid_request") d) := by
  unfold validateRequest at h
  repeat' (split at h)
  all_goals cases h
  all_goals exact ⟨_, by decide, rfl⟩

theorem param_ok {data : Dict PyStr PyStr} {k v : PyStr} (h : Dict.get data k = some v) : param data k = .ok v := by
  unfold param Dict.getItem
  rw [h]
  rfl

theorem grantOf_responseType {env : OEnv} {cfg : Config} {table : Hooks} {g : GrantClass} {rt : PyStr}
    (h : (grantOf env cfg table g).responseType = some rt) : g = .authorizationCode ∧ rt = py! "code" := by
  cases g
  · cases h; exact ⟨rfl, rfl⟩
  · cases h
  · cases h

theorem validateResponseType_ok {env : OEnv} {table : Hooks} {p : Provider} {rt : PyStr} {st : Option PyStr} {grant : Grant}
    (h : validateResponseType (p.objects env table) rt st = .ok grant) :
    .authorizationCode ∈ p.grants ∧ rt = py! "code" ∧ grant = authorizationCodeGrant env p.cfg table := by
  unfold validateResponseType at h
  split at h
  · rename_i g hg
    cases h
    have h1 := List.find?_some hg
    obtain ⟨k, hk, rfl⟩ := List.mem_map.mp (List.mem_of_find?_eq_some hg)
    rw [decide_eq_true_eq] at h1
    obtain ⟨rfl, rfl⟩ := grantOf_responseType h1
    exact ⟨hk, rfl, rfl⟩
  · cases h

theorem validateResponseType_error {env : OEnv} {table : Hooks} {p : Provider} {rt : PyStr} {st : Option PyStr} {e : OExc}
    (h : validateResponseType (p.objects env table) rt st = .error e) :
    (rt = py! "code" → .authorizationCode ∉ p.grants) ∧
      e = .oauth (.mk' .unsupportedResponseType (some (py! "Unsupported response_type \"" ++ rt ++ py! "\".")) st) := by
  unfold validateResponseType at h
  split at h
  · cases h
  · rename_i hg
    cases h
    refine ⟨?_, rfl⟩
    rintro rfl hm
    rw [List.find?_eq_none] at hg
    have := hg (grantOf env p.cfg table .authorizationCode) (List.mem_map.mpr ⟨_, hm, rfl⟩)
    exact this (by simp [grantOf, authorizationCodeGrant])

/-- Rule for the lookup and the checks of the client. -/
theorem wpp_validateClient {id uri rt : PyStr} {st : Option PyStr} {h : List Ev} {Q : List Ev → Client → Prop}
    {E : List Ev → OExc → Prop} (hS : S h (.findClient id))
    (hQ : ∀ c, uri ∈ c.redirectUris → rt ∈ c.responseTypes → Q (h ++ [(⟨.findClient id, .ok (some c)⟩ : Ev)]) c)
    (hfatal : ∀ h' d, (∀ ch ∈ d, ch < 128) → E h' (.oauth (.fatal (py! "invalid_request") d)))
    (hun : ∀ c, uri ∈ c.redirectUris → rt ∉ c.responseTypes →
      E (h ++ [(⟨.findClient id, .ok (some c)⟩ : Ev)]) (.oauth (.mk' .unauthorizedClient none st)))
    (hE : ∀ e, E (h ++ [(⟨.findClient id, .error e⟩ : Ev)]) e) : WpP A S Q E h (validateClient id uri rt st) := by
  unfold validateClient
  rw [wpp_bind, wpp_call]
  refine ⟨hS, ?_, fun e _ => hE e⟩
  intro found _
  cases found with
  | none => exact hfatal _ _ (by decide)
  | some c =>
    dsimp only
    rw [wpp_ite]
    refine ⟨fun _ => hfatal _ _ (by decide), fun hu => ?_⟩
    rw [wpp_ite]
    exact ⟨fun hr => hun c (Decidable.not_not.mp hu) hr, fun hr => hQ c (Decidable.not_not.mp hu) (Decidable.not_not.mp hr)⟩

/-- Rule for the body of the authorization endpoint. -/
theorem wpp_authorizeBody {env : OEnv} {table : Hooks} (hb : Benign table) {p : Provider} {req : Request} :
    WpP (fun _ _ => True) (AuthorizeOp table p req) (AuthorizeOk env table p req) (AuthFail env table p req)
      [] (authorizeBody (p.objects env table) req) := by
  unfold authorizeBody
  dsimp only
  rw [wpp_bind, wpp_lift, post_iff]
  refine ⟨?_, ?_⟩
  rotate_left
  · intro e he
    obtain ⟨d, hd, rfl⟩ := validateRequest_error he
    exact .fatal d hd
  rintro ⟨⟩ hv
  obtain ⟨uri, id, rt, hu, hi, hr⟩ := validateRequest_ok hv
  cases huser : req.user with
  | none => exact .denied uri huser hu
  | some user =>
    dsimp only
    rw [wpp_bind, param_ok hr, wpp_lift]
    change WpP _ _ _ _ _ _
    have hu' : Dict.get (Dict.del req.data (py! "response_type")) (py! "redirect_uri") = some uri := by
      rw [Dict.get_del _ (by decide)]; exact hu
    have hi' : Dict.get (Dict.del req.data (py! "response_type")) (py! "client_id") = some id := by
      rw [Dict.get_del _ (by decide)]; exact hi
    have hst : Dict.get (Dict.del req.data (py! "response_type")) (py! "state") = Dict.get req.data (py! "state") :=
      Dict.get_del _ (by decide)
    rw [hst, wpp_bind, wpp_lift, post_iff]
    refine ⟨?_, ?_⟩
    rotate_left
    · intro e he
      obtain ⟨h1, rfl⟩ := validateResponseType_error he
      refine .unsupported uri rt _ hu hr h1 rfl (authLibErr_mk (by decide) ?_)
      intro ch hch
      simp only [List.mem_append] at hch
      rcases hch with (hch | hch) | hch
      · exact Or.inl ((by decide : ∀ ch ∈ py! "Unsupported response_type \"", ch < 128) ch hch)
      · exact Or.inr ⟨_, _, hr, hch⟩
      · exact Or.inl ((by decide : ∀ ch ∈ py! "\".", ch < 128) ch hch)
    intro grant hgrant
    obtain ⟨hg, rfl, rfl⟩ := validateResponseType_ok hgrant
    rw [wpp_bind, param_ok hi', wpp_lift]
    change WpP _ _ _ _ _ _
    rw [wpp_bind, param_ok hu', wpp_lift]
    change WpP _ _ _ _ _ _
    rw [wpp_bind]
    refine wpp_validateClient trivial ?_ (fun h' d hd => .fatal d hd) ?_ ?_
    · intro c hreg hrt
      have hf : FoundClient ([] ++ [(⟨.findClient id, .ok (some c)⟩ : Ev)]) id c := by simp [FoundClient]
      generalize ([] ++ [(⟨.findClient id, .ok (some c)⟩ : Ev)]) = h0 at hf ⊢
      have hru : ∀ h', h0 ⊆ h' → RegisteredUri req h' uri := fun h' hs => ⟨id, c, hi, hs hf, hu, hreg⟩
      have hauth : ∀ h' valid, h0 ⊆ h' → AuthParams (Dict.del req.data (py! "response_type")) valid →
          (∃ ws allowed, Dict.get valid (py! "scopes") = some (strList ws) ∧ (∀ s ∈ ws, s ∈ p.cfg.scopes) ∧
            c.allowedScopes (strList ws) = .ok allowed ∧ ∀ s ∈ ws, s ∈ allowed) →
          Authorizes p req h' c user valid := by
        intro h' valid hs hp hsc
        obtain ⟨⟨ch, hc1, hc2⟩, ⟨m, hm1, hm2⟩, ⟨uri2, hu1, hu2⟩, ⟨text, ht1, ht2⟩, hstate⟩ := hp
        obtain ⟨ws, allowed, hw1, hw2⟩ := hsc
        rw [hu'] at hu1
        cases hu1
        rw [Dict.get_del _ (by decide)] at hc1 hm1 ht1
        refine ⟨huser, hg, hr, hrt, ⟨id, hi, hs hf⟩, ⟨uri, hu, hreg, hu2⟩, ⟨ch, hc1, hc2⟩, ⟨m, hm1, hm2⟩, ?_, ?_⟩
        · refine ⟨text, ws, allowed, ht1, ?_, hw1, hw2⟩
          rw [ht2] at hw1
          have : splitWs text = ws := by
            have := Option.some.inj hw1
            unfold strList at this
            have := Val.list.inj this
            exact List.map_inj_right (fun _ _ h => Val.str.inj h) |>.mp this
          exact words_iff.mpr this
        · rw [hstate, hst]
          cases Dict.get req.data (py! "state") <;> rfl
      rw [wpp_bind]
      change WpP _ _ _ _ _ (codeAuthorize env p.cfg table (Dict.del req.data (py! "response_type")) c user)
      refine wpp_codeAuthorize hb hu' authorizeOp_quiet ?_ ?_ ?_ ?_
      · intro h' code valid hs hp hsc hd hh
        exact ⟨hauth h' valid hs hp hsc, hd, hh⟩
      · intro h' code valid response hs hd
        have hdone : AuthorizeDone env table p req h' uri code response := by
          refine ⟨hru h' hs, c, user, valid, hauth h' valid hs hd.params hd.scopes, hd.saved, hd.drawn, ?_⟩
          obtain ⟨tr, hx, ht⟩ := hd.response
          have : dget valid (py! "state") = optVal (Dict.get req.data (py! "state")) := by
            unfold dget
            rw [hd.params.state, hst]
            rfl
          rw [this] at hx
          exact ⟨tr, hx, ht⟩
        cases hue : urlencodeVals env uri response with
        | error e => exact .encode uri code response e hdone (Or.inl hue)
        | ok url =>
          change WpP _ _ _ _ _ _
          rw [wpp_lift, post_liftRes]
          exact ⟨fun r hr => ⟨uri, code, response, url, hdone, hue, hr⟩,
            fun x hx => .encode uri code response _ hdone (Or.inr ⟨url, x, hue, hx, rfl⟩)⟩
      · intro h' x hs hx
        exact .lib uri x (hru h' hs) (authLibErr_del hx)
      · intro h' e hs he
        exact .app uri id c user e (hru h' hs) (hs hf) he
    · intro c hreg hrt
      refine .lib uri _ ⟨id, c, hi, by simp [FoundClient], hu, hreg⟩ ⟨nofun, rfl, rfl, rfl, rfl, nofun⟩
    · intro e
      exact .lookup uri id e hu (List.mem_append_right _ List.mem_cons_self)

/-- Rule for the authorization endpoint. -/
theorem wpp_authorize {env : OEnv} {table : Hooks} (hb : Benign table) (p : Provider) (req : Request) :
    WpP (fun _ _ => True) (AuthorizeOp table p req)
      (fun h r => AuthorizeOk env table p req h r ∨
        ∃ x : OErr, AuthFail env table p req h (.oauth x) ∧ authorizationError p.cfg req.data x = .ok r)
      (fun h e => (AuthFail env table p req h e ∧ ∃ x, e = .py x) ∨
        ∃ x : OErr, AuthFail env table p req h (.oauth x) ∧ authorizationError p.cfg req.data x = .error e)
      [] (p.authorize env table req) := by
  unfold Provider.authorize authorizeEndpoint
  rw [wpp_catch]
  refine wpp_mono (wpp_authorizeBody hb) (fun _ _ h => h) (fun _ _ h => Or.inl h) ?_
  intro h e he
  cases e with
  | oauth x =>
    dsimp only [caught]
    rw [wpp_lift, post_iff]
    exact ⟨fun r hr => Or.inr ⟨x, he, hr⟩, fun e he' => Or.inr ⟨x, he, he'⟩⟩
  | py x => exact Or.inl ⟨he, x, rfl⟩

/-- Every operation of the authorization endpoint is allowed. -/
theorem authorize_op {env : OEnv} {table : Hooks} (hb : Benign table) {p : Provider} {req : Request}
    {pre post : List Ev} {ev : Ev} (h : Partial (p.authorize env table req) (pre ++ ev :: post)) :
    AuthorizeOp table p req pre ev.op := wpp_partial h (wpp_authorize hb p req) answers_true rfl

/-- The two kinds of responses. -/
theorem authorize_response {env : OEnv} {table : Hooks} (hb : Benign table) {p : Provider} {req : Request} {tr : List Ev}
    {r : Response} (h : Exec (p.authorize env table req) tr (.ok r)) :
    AuthorizeOk env table p req tr r ∨
      ∃ x : OErr, AuthFail env table p req tr (.oauth x) ∧ authorizationError p.cfg req.data x = .ok r :=
  wpp_exec_ok h (wpp_authorize hb p req) answers_true

end Psion
