import Verif.OAuth.HookLemmas
import Verif.Jose.DumpLemmas

/-!
# The grants at the token endpoint: lemmas
-/

namespace Psion

open Spec

variable {A : List Ev → Ev → Prop} {S : List Ev → Op → Prop}

/-! ## Errors of the library -/

/-- An error raised by the library itself for a request with the given parameters. Its texts consist of fixed ASCII
characters and of characters of the parameters. -/
structure LibErr (data : Dict PyStr PyStr) (x : OErr) : Prop where
  error : x.error = some x.kind.code
  uri : x.uri = none
  state : x.state = none
  headers : x.headers = [] ∨ x.headers = [(py! "WWW-Authenticate", py! "Basic")]
  text : ∀ d, x.description = some d → ∀ ch ∈ d, ch < 128 ∨ ∃ k v, Dict.get data k = some v ∧ ch ∈ v

/-- An error with a fixed description. -/
theorem libErr_fixed (data : Dict PyStr PyStr) (kind : ErrKind) (d : PyStr) (h : ∀ ch ∈ d, ch < 128) :
    LibErr data (.mk' kind (some d)) := ⟨rfl, rfl, rfl, Or.inl rfl, by rintro t ⟨⟩ ch hc; exact Or.inl (h ch hc)⟩

theorem libErr_plain (data : Dict PyStr PyStr) (kind : ErrKind) : LibErr data (.mk' kind) :=
  ⟨rfl, rfl, rfl, Or.inl rfl, nofun⟩

theorem libErr_mono {data data' : Dict PyStr PyStr} {x : OErr} (h : LibErr data x)
    (hd : ∀ k v, Dict.get data k = some v → ∃ k, Dict.get data' k = some v) : LibErr data' x := by
  refine ⟨h.error, h.uri, h.state, h.headers, ?_⟩
  intro d hde ch hch
  rcases h.text d hde ch hch with h1 | ⟨k, v, hk, hv⟩
  · exact Or.inl h1
  · obtain ⟨k', hk'⟩ := hd k v hk
    exact Or.inr ⟨k', v, hk', hv⟩

/-! ## Hooks, seen from outside -/

theorem runHooks_quiet {reserved : List PyStr} {l : List (Dict PyStr Val → P (Option (Dict PyStr Val)))}
    (hb : ∀ f ∈ l, ∀ acc, BenignHook reserved (f acc)) {acc : Dict PyStr Val} {tr : List Ev}
    (h : Partial (runHooks acc l) tr) : Quiet tr := by
  have hw : WpP (fun _ _ => True) (fun _ o => touchesStore o = false) (fun _ _ => True) (fun _ _ => True) []
      (runHooks acc l) :=
    wpp_runHooks hb (fun _ _ h => h) (fun _ _ _ _ => trivial) (fun _ _ _ _ => trivial)
  intro ev hev
  obtain ⟨pre, post, rfl⟩ := List.append_of_mem hev
  exact wpp_partial h hw answers_true rfl

theorem runHooks_keys {reserved : List PyStr} {l : List (Dict PyStr Val → P (Option (Dict PyStr Val)))}
    (hb : ∀ f ∈ l, ∀ acc, BenignHook reserved (f acc)) {acc acc' : Dict PyStr Val} {tr : List Ev}
    (h : Exec (runHooks acc l) tr (.ok acc')) : ∀ k ∈ reserved, Dict.get acc' k = Dict.get acc k := by
  have hw : WpP (fun _ _ => True) (fun _ _ => True) (fun _ a => ∀ k ∈ reserved, Dict.get a k = Dict.get acc k)
      (fun _ _ => True) [] (runHooks acc l) :=
    wpp_runHooks hb (fun _ _ _ => trivial) (fun _ _ _ h => h) (fun _ _ _ _ => trivial)
  exact wpp_exec_ok h hw answers_true

theorem runHooks_raises {reserved : List PyStr} {l : List (Dict PyStr Val → P (Option (Dict PyStr Val)))}
    (hb : ∀ f ∈ l, ∀ acc, BenignHook reserved (f acc)) {acc : Dict PyStr Val} {tr : List Ev} {e : OExc}
    (h : Exec (runHooks acc l) tr (.error e)) : HookRaises reserved l acc tr e := by
  have hw : WpP (fun _ _ => True) (fun _ _ => True) (fun _ _ => True)
      (fun h e => HookRaises reserved l acc h e) [] (runHooks acc l) :=
    wpp_runHooks hb (fun _ _ _ => trivial) (fun _ _ _ _ => trivial) (fun _ _ _ h => h)
  exact wpp_exec_error h hw answers_true

/-! ## Authorization code -/

/-- The hooks of the token request, applied. -/
def tokenRequestHooks (hooks : Hooks) (data : Dict PyStr PyStr) :
    List (Dict PyStr Val → P (Option (Dict PyStr Val))) :=
  hooks.tokenRequest.map (fun h _ => h data)

/-- The members that hooks must leave alone in a token request. -/
def requestKeys : List PyStr := [py! "code", py! "redirect_uri", py! "code_verifier"]

/-- The members that hooks must leave alone in a token response. -/
def responseKeys : List PyStr :=
  [py! "access_token", py! "token_type", py! "expires_in", py! "refresh_token", py! "scope"]

/-- The hooks of the token response, applied. -/
def tokenResponseHooks (hooks : Hooks) (data : Dict PyStr Val) (client : Client) (user : User) :
    List (Dict PyStr Val → P (Option (Dict PyStr Val))) :=
  hooks.tokenResponse.map (fun h token => h token data client user)

theorem benign_tokenRequest {hooks : Hooks} (hb : Benign hooks) (data : Dict PyStr PyStr) :
    ∀ f ∈ tokenRequestHooks hooks data, ∀ acc,
      BenignHook [py! "code", py! "redirect_uri", py! "code_verifier"] (f acc) := by
  intro f hf acc
  obtain ⟨g, hg, rfl⟩ := List.mem_map.mp hf
  exact hb.tokenRequest g hg data

theorem benign_tokenResponse {hooks : Hooks} (hb : Benign hooks) (data : Dict PyStr Val) (client : Client)
    (user : User) :
    ∀ f ∈ tokenResponseHooks hooks data client user, ∀ acc,
      BenignHook [py! "access_token", py! "token_type", py! "expires_in", py! "refresh_token", py! "scope"]
        (f acc) := by
  intro f hf acc
  obtain ⟨g, hg, rfl⟩ := List.mem_map.mp hf
  exact hb.tokenResponse g hg acc data client user

/-- The data that reaches the code grant after validation. -/
structure ValidCodeData (data : Dict PyStr PyStr) (valid : Dict PyStr Val) (code uri verifier : PyStr) : Prop where
  dcode : Dict.get data (py! "code") = some code
  duri : Dict.get data (py! "redirect_uri") = some uri
  dverifier : Dict.get data (py! "code_verifier") = some verifier
  vcode : Dict.get valid (py! "code") = some (.str code)
  vuri : Dict.get valid (py! "redirect_uri") = some (.str uri)
  vverifier : Dict.get valid (py! "code_verifier") = some (.str verifier)

/-- Reasons for which the code grant raises something else than an `OAuth2Error`. -/
def CodeFail (cfg : Config) (hooks : Hooks) (data : Dict PyStr PyStr) (client : Client) (h : List Ev) (e : OExc) : Prop :=
  (∃ x, e = .oauth x ∧ LibErr data x) ∨ (∃ o, (⟨o, .error e⟩ : Ev) ∈ h) ∨
    (∃ acc, HookRaises requestKeys (tokenRequestHooks hooks data) acc h e) ∨
    (∃ code ac valid user access refresh, Dict.get data (py! "code") = some code ∧ FoundCode h (.str code) ac ∧
      (⟨.createAccess client (.user (some user)) ac.scopes, .ok access⟩ : Ev) ∈ h ∧
      HookRaises responseKeys (tokenResponseHooks hooks valid client user)
        (createToken cfg access refresh (some ac.scopes)) h e) ∨
    (∃ v, Dict.get data (py! "code_verifier") = some v ∧ (¬ ∀ c ∈ v, c < 128) ∧ e = .py .unicodeEncode)

theorem codeFail_mono {cfg : Config} {hooks : Hooks} {data : Dict PyStr PyStr} {client : Client} {h h' : List Ev}
    {e : OExc} (H : CodeFail cfg hooks data client h e) (hs : h <:+: h') : CodeFail cfg hooks data client h' e := by
  rcases H with H | ⟨o, H⟩ | ⟨acc, H⟩ | ⟨c, ac, v, u, a, r, h1, h2, h4, h3⟩ | H
  · exact Or.inl H
  · exact Or.inr (Or.inl ⟨o, hs.subset H⟩)
  · exact Or.inr (Or.inr (Or.inl ⟨acc, hookRaises_mono H hs⟩))
  · exact Or.inr (Or.inr (Or.inr (Or.inl ⟨c, ac, v, u, a, r, h1, hs.subset h2, hs.subset h4, hookRaises_mono h3 hs⟩)))
  · exact Or.inr (Or.inr (Or.inr (Or.inr H)))

theorem codeTokenParams_ok {data : Dict PyStr PyStr} {d : Dict PyStr Val} (h : codeTokenParams data = .ok d) :
    ∃ code uri verifier, ValidCodeData data d code uri verifier := by
  unfold codeTokenParams at h
  split at h
  · cases h
  split at h
  · cases h
  split at h
  · cases h
  rename_i h1 h2 h3
  simp only [Bool.not_eq_true] at h1 h2 h3
  obtain ⟨c, hc, -⟩ := blank_eq_false.mp h1
  obtain ⟨u, hu, -⟩ := blank_eq_false.mp h2
  obtain ⟨v, hv, -⟩ := blank_eq_false.mp h3
  cases h
  refine ⟨c, u, v, ⟨hc, hu, hv, ?_, ?_, ?_⟩⟩
  · rw [hc]; rfl
  · rw [hu]; rfl
  · rw [hv]; rfl

theorem codeTokenParams_error {data : Dict PyStr PyStr} {e : OExc} (h : codeTokenParams data = .error e) :
    ∃ x, e = .oauth x ∧ LibErr data x := by
  unfold codeTokenParams at h
  split at h
  · cases h; exact ⟨_, rfl, libErr_fixed _ _ _ (by decide)⟩
  split at h
  · cases h; exact ⟨_, rfl, libErr_fixed _ _ _ (by decide)⟩
  split at h
  · cases h; exact ⟨_, rfl, libErr_fixed _ _ _ (by decide)⟩
  · cases h

/-- Rule for `_validate_token_request`. -/
theorem wpp_validateCodeTokenRequest {hooks : Hooks} (hb : Benign hooks) {data : Dict PyStr PyStr}
    (hS : ∀ h o, touchesStore o = false → S h o) {h : List Ev} {Q : List Ev → Dict PyStr Val → Prop}
    {E : List Ev → OExc → Prop}
    (hQ : ∀ tr valid code uri verifier, Quiet tr → ValidCodeData data valid code uri verifier →
      Q (h ++ tr) valid)
    (hE : ∀ tr e, Quiet tr → ((∃ x, e = .oauth x ∧ LibErr data x) ∨
      ∃ acc, HookRaises requestKeys (tokenRequestHooks hooks data) acc tr e) → E (h ++ tr) e) :
    WpP A S Q E h (validateCodeTokenRequest hooks data) := by
  unfold validateCodeTokenRequest
  rw [wpp_bind, wpp_lift, post_iff]
  constructor
  · intro d hd
    obtain ⟨code, uri, verifier, hv⟩ := codeTokenParams_ok hd
    refine wpp_runHooks (benign_tokenRequest hb data) hS ?_ (fun tr e hq hr => hE tr e hq (Or.inr ⟨_, hr⟩))
    intro tr acc' hq hk
    refine hQ tr acc' code uri verifier hq ⟨hv.dcode, hv.duri, hv.dverifier, ?_, ?_, ?_⟩
    · rw [hk _ (by simp), hv.vcode]
    · rw [hk _ (by simp), hv.vuri]
    · rw [hk _ (by simp), hv.vverifier]
  · intro e he
    have := hE [] e quiet_nil (Or.inl (codeTokenParams_error he))
    rw [List.append_nil] at this
    exact this

theorem pkce_of_run {env : OEnv} {ac : AuthCode} {v : PyStr}
    (h : runChallenge env ac.challengeMethod ac.challenge (.str v) = some (.ok true)) : PkceOk env ac v := by
  unfold runChallenge at h
  split at h
  · rename_i hm
    refine Or.inl ⟨hm, ?_⟩
    simp only [Option.some.injEq, Except.ok.injEq] at h
    exact pyEq_text.mp h
  · split at h
    · rename_i hm
      refine Or.inr ⟨hm, ?_⟩
      simp only [Option.some.injEq] at h
      unfold s256Challenge toBytesAscii at h
      dsimp only at h
      split at h
      · cases h
      · rename_i b hb
        split at hb
        · rename_i hall
          cases hb
          rw [List.all_eq_true] at hall
          simp only [Except.ok.injEq, decide_eq_true_eq] at h
          rw [toStringB_b64url] at h
          exact ⟨fun c hc => by simpa using hall c hc, h⟩
        · cases hb
    · cases h

theorem run_error {env : OEnv} {name challenge v : PyStr} {e : Exc}
    (h : runChallenge env name challenge (.str v) = some (.error e)) :
    (¬ ∀ c ∈ v, c < 128) ∧ e = .unicodeEncode := by
  unfold runChallenge at h
  split at h
  · cases h
  · split at h
    · simp only [Option.some.injEq] at h
      unfold s256Challenge toBytesAscii at h
      dsimp only at h
      split at h
      · rename_i e' he
        cases h
        split at he
        · cases he
        · rename_i hall
          cases he
          refine ⟨fun H => hall ?_, rfl⟩
          rw [List.all_eq_true]
          intro c hc
          simpa using H c hc
      · cases h
    · cases h

theorem run_none {env : OEnv} {name challenge : PyStr} {v : Val} (hm : name ∈ challengeMethods) :
    runChallenge env name challenge v ≠ none := by
  unfold runChallenge challengeMethods at *
  simp only [List.mem_cons, List.not_mem_nil, or_false] at hm
  rcases hm with rfl | rfl <;> simp

/-- Rule for `_validate_authorization_code`. -/
theorem wpp_validateAuthorizationCode {env : OEnv} {data : Dict PyStr PyStr} {valid : Dict PyStr Val}
    {code uri verifier : PyStr} (hv : ValidCodeData data valid code uri verifier) {ac : AuthCode} {client : Client}
    (hS : ∀ h, S h .now) {h : List Ev} {Q : List Ev → Unit → Prop} {E : List Ev → OExc → Prop}
    (hQ : ∀ now, uri ∈ client.redirectUris → ac.clientId = client.clientId → ac.redirectUri = uri →
      PkceOk env ac verifier → now < ac.expiration → Q (h ++ [⟨.now, .ok now⟩]) ())
    (hE : ∀ tr e, Quiet tr → ((∃ x, e = .oauth x ∧ LibErr data x) ∨ (∃ o, (⟨o, .error e⟩ : Ev) ∈ h ++ tr) ∨
      ((¬ ∀ c ∈ verifier, c < 128) ∧ e = .py .unicodeEncode)) → E (h ++ tr) e) :
    WpP A S Q E h (validateAuthorizationCode env valid ac client) := by
  have hE0 : ∀ x, LibErr data x → E h (.oauth x) := by
    intro x hx
    have := hE [] (.oauth x) quiet_nil (Or.inl ⟨x, rfl, hx⟩)
    rwa [List.append_nil] at this
  have hq1 : ∀ r, Quiet [⟨.now, r⟩] := by
    intro r ev hev
    rw [List.mem_singleton.mp hev]; rfl
  unfold validateAuthorizationCode
  rw [wpp_bind, item_ok hv.vuri, wpp_lift]
  change WpP A S Q E h _
  rw [wpp_ite]
  refine ⟨fun _ => hE0 _ (libErr_fixed _ _ _ (by decide)), fun h1 => ?_⟩
  rw [wpp_ite]
  refine ⟨fun _ => hE0 _ (libErr_fixed _ _ _ (by decide)), fun h2 => ?_⟩
  rw [wpp_ite]
  refine ⟨fun _ => hE0 _ (libErr_fixed _ _ _ (by decide)), fun h3 => ?_⟩
  rw [wpp_ite]
  refine ⟨fun _ => hE0 _ (libErr_fixed _ _ _ (by decide)), fun h4 => ?_⟩
  rw [wpp_bind, item_ok hv.vverifier, wpp_lift]
  change WpP A S Q E h _
  simp only [Bool.not_eq_true', Bool.not_eq_false, inList_str, pyEq_text] at h1 h3
  have hm := Decidable.not_not.mp h4
  split
  · rename_i hr
    exact absurd hr (run_none hm)
  · rename_i e hr
    have := hE [] (.py e) quiet_nil (Or.inr (Or.inr (by
      obtain ⟨ha, hb⟩ := run_error hr
      exact ⟨ha, by rw [hb]⟩)))
    rw [List.append_nil] at this
    exact this
  · rename_i ok hr
    rw [wpp_ite]
    refine ⟨fun _ => hE0 _ (libErr_fixed _ _ _ (by decide)), fun h5 => ?_⟩
    rw [wpp_bind, wpp_call]
    refine ⟨hS _, ?_, fun e _ => hE _ e (hq1 _) (Or.inr (Or.inl ⟨.now, by simp⟩))⟩
    intro now _
    rw [wpp_ite]
    refine ⟨fun _ => hE _ _ (hq1 _) (Or.inl ⟨_, rfl, libErr_fixed _ _ _ (by decide)⟩), fun h6 => ?_⟩
    have hok : ok = true := by simpa using h5
    subst hok
    exact hQ now h1 (Decidable.not_not.mp h2).symm h3.symm (pkce_of_run hr) (Int.not_le.mp h6)

/-- What a successful run of the code grant did. -/
structure CodeDone (env : OEnv) (cfg : Config) (hooks : Hooks) (data : Dict PyStr PyStr) (client : Client)
    (h : List Ev) (token : Dict PyStr Val) : Prop where
  done : ∃ code ac user access refresh valid tr,
    Dict.get data (py! "code") = some code ∧ FoundCode h (.str code) ac ∧
    FoundUser h ac.userId (some user) ∧
    CodeJustifies env data h client user ac.scopes ∧
    (⟨.createAccess client (.user (some user)) ac.scopes, .ok access⟩ : Ev) ∈ h ∧
    (py! "refresh_token" ∈ client.grantTypes →
      ∃ t, refresh = some t ∧ (⟨.createRefresh client (some user) ac.scopes, .ok t⟩ : Ev) ∈ h) ∧
    (py! "refresh_token" ∉ client.grantTypes → refresh = none) ∧
    Exec (runHooks (createToken cfg access refresh (some ac.scopes)) (tokenResponseHooks hooks valid client user)) tr
      (.ok token) ∧ tr <:+: h

theorem codeJustifies_mono {env : OEnv} {data : Dict PyStr PyStr} {h h' : List Ev} {c : Client} {u : User}
    {scopes : List PyStr} (H : CodeJustifies env data h c u scopes) (hs : h ⊆ h') :
    CodeJustifies env data h' c u scopes := by
  obtain ⟨code, ac, uri, v, now, h1, h2, h3, h4, h5, h6, h7, h8, h9, h10, h11, h12⟩ := H
  exact ⟨code, ac, uri, v, now, h1, hs h2, h3, h4, h5, h6, h7, h8, hs h9, h10, hs h11, h12⟩

theorem wpp_maybeRefresh {client : Client} {user : Option User} {scopes : List PyStr} {h : List Ev}
    {Q : List Ev → Option PyStr → Prop} {E : List Ev → OExc → Prop}
    (hS : py! "refresh_token" ∈ client.grantTypes → S h (.createRefresh client user scopes))
    (hQ1 : py! "refresh_token" ∈ client.grantTypes →
      ∀ t, Q (h ++ [⟨.createRefresh client user scopes, .ok t⟩]) (some t))
    (hQ2 : py! "refresh_token" ∉ client.grantTypes → Q h none)
    (hE : ∀ e, E (h ++ [⟨.createRefresh client user scopes, .error e⟩]) e) :
    WpP A S Q E h (maybeRefresh client user scopes) := by
  unfold maybeRefresh
  rw [wpp_ite]
  refine ⟨fun hg => ?_, hQ2⟩
  rw [wpp_bind, wpp_call]
  exact ⟨hS hg, fun t _ => hQ1 hg t, fun e _ => hE e⟩

/-- Rule for the body of the code grant. -/
theorem wpp_codeTokenBody {env : OEnv} {cfg : Config} {hooks : Hooks} (hb : Benign hooks)
    {data : Dict PyStr PyStr} {valid : Dict PyStr Val} {code uri verifier : PyStr}
    (hv : ValidCodeData data valid code uri verifier) {client : Client}
    (hS : ∀ h o, touchesStore o = false → S h o) {h : List Ev}
    (hget : S h (.getCode (.str code)))
    (hacc : ∀ h' u scopes, h ⊆ h' → CodeJustifies env data h' client u scopes →
      S h' (.createAccess client (.user (some u)) scopes))
    (href : ∀ h' u scopes, h ⊆ h' → CodeJustifies env data h' client u scopes →
      py! "refresh_token" ∈ client.grantTypes → S h' (.createRefresh client (some u) scopes))
    {Q : List Ev → Dict PyStr Val → Prop} {E : List Ev → OExc → Prop}
    (hQ : ∀ h' token, h ⊆ h' → CodeDone env cfg hooks data client h' token → Q h' token)
    (hE : ∀ h' e, h ⊆ h' → CodeFail cfg hooks data client h' e → E h' e) :
    WpP A S Q E h (codeTokenBody env cfg hooks valid client) := by
  unfold codeTokenBody
  rw [wpp_bind, item_ok hv.vcode, wpp_lift]
  change WpP A S Q E h _
  rw [wpp_bind, wpp_call]
  refine ⟨hget, ?_, fun e _ => hE _ e (by simp) (Or.inr (Or.inl ⟨_, List.mem_append_right _ List.mem_cons_self⟩))⟩
  intro found _
  cases found with
  | none => exact hE _ _ (by simp) (Or.inl ⟨_, rfl, libErr_fixed _ _ _ (by decide)⟩)
  | some ac =>
    dsimp only
    rw [wpp_bind]
    refine wpp_validateAuthorizationCode hv (fun h => hS h _ rfl) ?_ ?_
    · intro now h1 h2 h3 h4 h5
      rw [wpp_bind, wpp_call]
      refine ⟨hS _ _ rfl, ?_, fun e _ => hE _ e (by intro x hx; simp [hx]) (Or.inr (Or.inl ⟨_, List.mem_append_right _ List.mem_cons_self⟩))⟩
      intro user _
      cases user with
      | none => exact hE _ _ (by intro x hx; simp [hx]) (Or.inl ⟨_, rfl, libErr_fixed _ _ _ (by decide)⟩)
      | some user =>
        dsimp only
        generalize hh : (h ++ [(⟨.getCode (.str code), .ok (some ac)⟩ : Ev)] ++ [⟨.now, .ok now⟩] ++
          [⟨.findUser ac.userId, .ok (some user)⟩]) = h3
        have hj : CodeJustifies env data h3 client user ac.scopes := by
          refine ⟨code, ac, uri, verifier, now, hv.dcode, ?_, h2, hv.duri, ‹_›, h1, hv.dverifier, h4, ?_, h5, ?_, rfl⟩
          · rw [← hh]; simp [FoundCode]
          · rw [← hh]; simp [ReadClock]
          · rw [← hh]; simp [FoundUser]
        have hc : FoundCode h3 (.str code) ac := by rw [← hh]; simp [FoundCode]
        have hu : FoundUser h3 ac.userId (some user) := by rw [← hh]; simp [FoundUser]
        have hsub : h ⊆ h3 := by rw [← hh]; intro x hx; simp [hx]
        clear hh
        rw [wpp_bind, wpp_call]
        refine ⟨hacc _ _ _ hsub hj, ?_, fun e _ => hE _ e (fun x hx => by simp [hsub hx]) (Or.inr (Or.inl ⟨_, List.mem_append_right _ List.mem_cons_self⟩))⟩
        intro access _
        generalize hh : (h3 ++ [(⟨.createAccess client (.user (some user)) ac.scopes, .ok access⟩ : Ev)]) = h4
        have hsub' : h3 ⊆ h4 := by rw [← hh]; intro x hx; simp [hx]
        have hac : (⟨.createAccess client (.user (some user)) ac.scopes, .ok access⟩ : Ev) ∈ h4 := by
          rw [← hh]; simp
        clear hh
        rw [wpp_bind]
        have hfin : ∀ h5 refresh, h4 ⊆ h5 → (py! "refresh_token" ∈ client.grantTypes →
            ∃ t, refresh = some t ∧ (⟨.createRefresh client (some user) ac.scopes, .ok t⟩ : Ev) ∈ h5) →
            (py! "refresh_token" ∉ client.grantTypes → refresh = none) →
            WpP A S Q E h5 (runHooks (createToken cfg access refresh (some ac.scopes))
              (hooks.tokenResponse.map (fun h token => h token valid client user))) := by
          intro h5 refresh hs5 hr1 hr2
          have hben := benign_tokenResponse hb valid client user
          refine wpp_mono (wpp_self (S := S) ?_) (fun _ _ h => h) ?_ ?_
          · intro pre ev post hp
            exact hS _ _ (runHooks_quiet hben hp ev (by simp))
          · rintro h' token ⟨tr, rfl, hx⟩
            refine hQ _ _ (fun x hx => by simp [hs5 (hsub' (hsub hx))]) ⟨code, ac, user, access, refresh, valid, tr, hv.dcode, ?_, ?_, ?_, ?_, ?_, hr2, hx,
              (List.suffix_append _ _).isInfix⟩
            · exact List.mem_append_left _ (hs5 (hsub' hc))
            · exact List.mem_append_left _ (hs5 (hsub' hu))
            · exact codeJustifies_mono hj (fun x hx => by simp [hs5 (hsub' hx)])
            · exact List.mem_append_left _ (hs5 hac)
            · intro hg
              obtain ⟨t, ht, hm⟩ := hr1 hg
              exact ⟨t, ht, List.mem_append_left _ hm⟩
          · rintro h' e ⟨tr, rfl, hx⟩
            exact hE _ _ (fun x hx => by simp [hs5 (hsub' (hsub hx))])
              (Or.inr (Or.inr (Or.inr (Or.inl ⟨code, ac, valid, user, access, refresh, hv.dcode,
                List.mem_append_left _ (hs5 (hsub' hc)), List.mem_append_left _ (hs5 hac),
                hookRaises_mono (runHooks_raises hben hx) (List.suffix_append _ _).isInfix⟩))))
        refine wpp_maybeRefresh (fun hg => href _ _ _ (fun x hx => hsub' (hsub hx)) (codeJustifies_mono hj hsub') hg) ?_ ?_ ?_
        · intro hg t
          exact hfin _ _ (fun x hx => by simp [hx]) (fun _ => ⟨t, rfl, by simp⟩) (fun hn => absurd hg hn)
        · intro hn
          exact hfin _ _ (fun x hx => hx) (fun hg => absurd hg hn) (fun _ => rfl)
        · intro e
          exact hE _ e (fun x hx => by simp [hsub' (hsub hx)]) (Or.inr (Or.inl ⟨_, List.mem_append_right _ List.mem_cons_self⟩))
    · rintro tr e - (⟨x, rfl, hx⟩ | ⟨o, ho⟩ | ⟨h1, rfl⟩)
      · exact hE _ _ (by intro y hy; simp [hy]) (Or.inl ⟨x, rfl, hx⟩)
      · exact hE _ _ (by intro y hy; simp [hy]) (Or.inr (Or.inl ⟨o, ho⟩))
      · exact hE _ _ (by intro y hy; simp [hy]) (Or.inr (Or.inr (Or.inr (Or.inr ⟨verifier, hv.dverifier, h1, rfl⟩))))

/-- The last operation is the successful deletion of the code. -/
def EndsDeleted (code : PyStr) (h : List Ev) : Prop := ∃ pre, h = pre ++ [(⟨.deleteCode (.str code), .ok ()⟩ : Ev)]

/-- The last operation is the deletion of the code, successful or not. -/
def EndsDeleting (code : PyStr) (h : List Ev) : Prop := ∃ pre a, h = pre ++ [(⟨.deleteCode (.str code), a⟩ : Ev)]

theorem EndsDeleted.deleting {code : PyStr} {h : List Ev} (H : EndsDeleted code h) : EndsDeleting code h := by
  obtain ⟨pre, rfl⟩ := H
  exact ⟨pre, _, rfl⟩

/-- Rule for the code grant. -/
theorem wpp_codeToken {env : OEnv} {cfg : Config} {hooks : Hooks} (hb : Benign hooks)
    {data : Dict PyStr PyStr} {client : Client}
    (hS : ∀ h o, touchesStore o = false → S h o) {h : List Ev}
    (hget : ∀ h' code, h ⊆ h' → Dict.get data (py! "code") = some code → S h' (.getCode (.str code)))
    (hdel : ∀ h' code, h ⊆ h' → Dict.get data (py! "code") = some code → S h' (.deleteCode (.str code)))
    (hacc : ∀ h' u scopes, h ⊆ h' → CodeJustifies env data h' client u scopes →
      S h' (.createAccess client (.user (some u)) scopes))
    (href : ∀ h' u scopes, h ⊆ h' → CodeJustifies env data h' client u scopes →
      py! "refresh_token" ∈ client.grantTypes → S h' (.createRefresh client (some u) scopes))
    {Q : List Ev → Dict PyStr Val → Prop} {E : List Ev → OExc → Prop}
    (hQ : ∀ h' token code, h ⊆ h' → CodeDone env cfg hooks data client h' token →
      Dict.get data (py! "code") = some code → EndsDeleted code h' → Q h' token)
    (hE : ∀ h' e code, h ⊆ h' → CodeFail cfg hooks data client h' e →
      Dict.get data (py! "code") = some code → EndsDeleting code h' → E h' e)
    (hK : ∀ h', h ⊆ h' → Dict.get data (py! "code") = none → E h' (.py .keyErr)) :
    WpP A S Q E h (codeToken env cfg hooks data client) := by
  have hdelete : ∀ (h' : List Ev) (code : PyStr) (Q' : List Ev → Unit → Prop) (E' : List Ev → OExc → Prop),
      h ⊆ h' → Dict.get data (py! "code") = some code →
      (Q' (h' ++ [⟨.deleteCode (.str code), .ok ()⟩]) ()) →
      (∀ e, E' (h' ++ [⟨.deleteCode (.str code), .error e⟩]) e) →
      WpP A S Q' E' h' (deleteCode (.ok (.str code))) := by
    intro h' code Q' E' hs hc h1 h2
    unfold deleteCode
    rw [wpp_bind, wpp_lift]
    change WpP A S Q' E' h' _
    exact wpp_call.mpr ⟨hdel h' code hs hc, fun ⟨⟩ _ => h1, fun e _ => h2 e⟩
  unfold codeToken
  rw [wpp_pbind]
  refine wpp_validateCodeTokenRequest hb hS ?_ ?_
  · intro tr valid code uri verifier _ hv
    dsimp only
    rw [wpp_finally, item_ok hv.vcode]
    have hs : h ⊆ h ++ tr := by intro x hx; simp [hx]
    refine wpp_codeTokenBody hb hv hS (hget _ _ hs hv.dcode) ?_ ?_ ?_ ?_
    · intro h' u sc hs' hj
      exact hacc _ _ _ (fun x hx => hs' (hs hx)) hj
    · intro h' u sc hs' hj hg
      exact href _ _ _ (fun x hx => hs' (hs hx)) hj hg
    · intro h' token hs' hd
      have hs2 : h ⊆ h' := fun x hx => hs' (hs hx)
      refine hdelete h' code _ _ hs2 hv.dcode ?_ ?_
      · refine hQ _ _ code (fun x hx => by simp [hs2 hx]) ?_ hv.dcode ⟨_, rfl⟩
        obtain ⟨c, ac, u, access, refresh, valid, tr, h1, h2, h3, h4, h5, h6, h7, h8, h9⟩ := hd.done
        refine ⟨c, ac, u, access, refresh, valid, tr, h1, List.mem_append_left _ h2, List.mem_append_left _ h3,
          codeJustifies_mono h4 (by intro x hx; simp [hx]), List.mem_append_left _ h5, ?_, h7, h8,
          h9.trans (List.prefix_append _ _).isInfix⟩
        intro hg
        obtain ⟨t, ht, hm⟩ := h6 hg
        exact ⟨t, ht, List.mem_append_left _ hm⟩
      · intro e
        exact hE _ _ code (fun x hx => by simp [hs2 hx]) (Or.inr (Or.inl ⟨_, List.mem_append_right _ List.mem_cons_self⟩)) hv.dcode ⟨_, _, rfl⟩
    · intro h' e hs' hf
      have hs2 : h ⊆ h' := fun x hx => hs' (hs hx)
      refine hdelete h' code _ _ hs2 hv.dcode ?_ ?_
      · exact hE _ _ code (fun x hx => by simp [hs2 hx]) (codeFail_mono hf (List.prefix_append _ _).isInfix) hv.dcode ⟨_, _, rfl⟩
      · intro e
        exact hE _ _ code (fun x hx => by simp [hs2 hx]) (Or.inr (Or.inl ⟨_, List.mem_append_right _ List.mem_cons_self⟩)) hv.dcode ⟨_, _, rfl⟩
  · intro tr e _ hr
    have hs : h ⊆ h ++ tr := by intro x hx; simp [hx]
    dsimp only
    rw [wpp_finally, wpp_raise]
    cases hc : Dict.get data (py! "code") with
    | none =>
      dsimp only
      unfold deleteCode
      rw [wpp_bind, wpp_lift]
      exact hK _ hs hc
    | some code =>
      dsimp only
      refine hdelete _ code _ _ hs hc ?_ ?_
      · refine hE _ _ code (fun x hx => by simp [hx]) ?_ hc ⟨_, _, rfl⟩
        rcases hr with hr | hr
        · exact Or.inl hr
        · obtain ⟨acc, hr⟩ := hr
          exact Or.inr (Or.inr (Or.inl ⟨acc, hookRaises_mono hr ⟨h, _, rfl⟩⟩))
      · intro e
        exact hE _ _ code (fun x hx => by simp [hx]) (Or.inr (Or.inl ⟨_, List.mem_append_right _ List.mem_cons_self⟩)) hc ⟨_, _, rfl⟩

/-! ## Scopes -/

theorem validateRequestedScopes_ok {env : OEnv} {cfg : Config} {l : List PyStr} {client : Client} {state : Val}
    (h : validateRequestedScopes env cfg (strList l) client state = .ok ()) :
    (∀ s ∈ l, s ∈ cfg.scopes) ∧ ∃ allowed, client.allowedScopes (strList l) = .ok allowed ∧ ∀ s ∈ l, s ∈ allowed := by
  unfold validateRequestedScopes at h
  rw [if_neg (by simp [strList, Val.isNone])] at h
  simp only [strList, iterVal, liftRes] at h
  split at h
  · cases h
  · rename_i hu
    split at h
    · cases h
    · rename_i allowed hal
      split at h
      · rename_i hsub
        refine ⟨?_, allowed, hal, ?_⟩
        · intro s hs
          unfold unsupportedScope at hu
          rw [List.find?_eq_none] at hu
          have := hu (.str s) (List.mem_map.mpr ⟨s, hs, rfl⟩)
          simp only [Bool.not_eq_true, Bool.not_eq_false'] at this
          exact inList_str.mp this
        · intro s hs
          unfold subsetVals at hsub
          rw [List.all_eq_true] at hsub
          exact inList_str.mp (hsub (.str s) (List.mem_map.mpr ⟨s, hs, rfl⟩))
      · cases h

theorem validateRequestedScopes_error {env : OEnv} {cfg : Config} {l : List PyStr} {client : Client} {state : Val}
    {e : OExc} (h : validateRequestedScopes env cfg (strList l) client state = .error e) :
    (∃ d, e = .oauth (.mk' .invalidScope (some d) (stateText env state)) ∧
        ∀ ch ∈ d, ch < 128 ∨ ∃ w ∈ l, ch ∈ w) ∨
      client.allowedScopes (strList l) = .error e := by
  unfold validateRequestedScopes at h
  rw [if_neg (by simp [strList, Val.isNone])] at h
  simp only [strList, iterVal, liftRes] at h
  split at h
  · rename_i v hv
    cases h
    refine Or.inl ⟨_, rfl, ?_⟩
    obtain ⟨w, hw, rfl⟩ := List.mem_map.mp (List.mem_of_find?_eq_some hv)
    intro ch hch
    simp only [OEnv.str, List.mem_append] at hch
    rcases hch with (hch | hch) | hch
    · exact Or.inl ((by decide : ∀ ch ∈ py! "Unsupported scope \"", ch < 128) ch hch)
    · exact Or.inr ⟨w, hw, hch⟩
    · exact Or.inl ((by decide : ∀ ch ∈ py! "\".", ch < 128) ch hch)
  · split at h
    · rename_i e' hal
      cases h
      exact Or.inr hal
    · split at h
      · cases h
      · cases h
        refine Or.inl ⟨_, rfl, fun ch hch => Or.inl ?_⟩
        exact (by decide : ∀ ch ∈ py! "This client is not authorized to request this scope.", ch < 128) ch hch

theorem mem_splitWs {s w : PyStr} (h : w ∈ splitWs s) : ∀ c ∈ w, c ∈ s := by
  have key : ∀ {s ws}, Words s ws → ∀ w ∈ ws, ∀ c ∈ w, c ∈ s := by
    intro s ws hw
    induction hw with
    | nil => simp
    | space c s ws _ _ ih => intro w hw d hd; exact List.mem_cons_of_mem _ (ih w hw d hd)
    | last w _ _ => intro w' hw' d hd; rw [List.mem_singleton.mp hw'] at hd; exact hd
    | word w c s ws _ _ _ _ ih =>
      intro w' hw' d hd
      rcases List.mem_cons.mp hw' with rfl | hw'
      · exact List.mem_append_left _ hd
      · exact List.mem_append_right _ (List.mem_cons_of_mem _ (ih w' hw' d hd))
  exact key (words_iff.mpr rfl) w h

/-- An error about a scope of the request. -/
theorem libErr_scope {data : Dict PyStr PyStr} {text d : PyStr} (ht : Dict.get data (py! "scope") = some text)
    (hd : ∀ ch ∈ d, ch < 128 ∨ ∃ w ∈ splitWs text, ch ∈ w) : LibErr data (.mk' .invalidScope (some d)) := by
  refine ⟨rfl, rfl, rfl, Or.inl rfl, ?_⟩
  rintro t ⟨⟩ ch hch
  rcases hd ch hch with h | ⟨w, hw, hc⟩
  · exact Or.inl h
  · exact Or.inr ⟨_, text, ht, mem_splitWs hw ch hc⟩

/-! ## Client credentials -/

theorem scopeArg_param (data : Dict PyStr PyStr) : ScopeArg (scopeParam data) := by
  unfold scopeParam
  split
  · exact Or.inl rfl
  · exact scopeArg_list _

/-- Reasons for which the grants without hooks raise. -/
def GrantFail (data : Dict PyStr PyStr) (client : Client) (h : List Ev) (e : OExc) : Prop :=
  (∃ x, e = .oauth x ∧ LibErr data x) ∨ (∃ o, (⟨o, .error e⟩ : Ev) ∈ h) ∨ ∃ v, ScopeArg v ∧ client.allowedScopes v = .error e

/-- What a successful run of the client credentials grant did. -/
structure CredentialsDone (cfg : Config) (data : Dict PyStr PyStr) (client : Client) (h : List Ev)
    (token : Dict PyStr Val) : Prop where
  done : ∃ scopes access, CredentialsJustify cfg data client scopes ∧
    (⟨.createAccess client (.client client) scopes, .ok access⟩ : Ev) ∈ h ∧
    ∃ reported, token = createToken cfg access none reported ∧
      (reported = some scopes ∨ reported = none ∧ ∃ text, Dict.get data (py! "scope") = some text ∧ Words text scopes)

theorem wpp_credentialsToken {env : OEnv} {cfg : Config} {data : Dict PyStr PyStr} {client : Client} {h : List Ev}
    {Q : List Ev → Dict PyStr Val → Prop} {E : List Ev → OExc → Prop}
    (hacc : ∀ scopes, CredentialsJustify cfg data client scopes → S h (.createAccess client (.client client) scopes))
    (hQ : ∀ h' token, h ⊆ h' → CredentialsDone cfg data client h' token → Q h' token)
    (hE : ∀ h' e, h ⊆ h' → GrantFail data client h' e → E h' e) :
    WpP A S Q E h (credentialsToken env cfg data client) := by
  unfold credentialsToken
  dsimp only
  have hself : h ⊆ h := fun _ h => h
  have key : ∀ scopes, CredentialsJustify cfg data client scopes →
      (∀ l, scopeParam data = strList l → ∃ text, Dict.get data (py! "scope") = some text ∧ Words text l) →
      (scopeParam data = .none ∨ ∃ l, scopeParam data = strList l) →
      WpP A S Q E h (P.bind (P.call (.createAccess client (.client client) scopes)) fun token =>
        P.ret (createToken cfg token none (scopesIfChanged scopes (scopeParam data)))) := by
    intro scopes hj hw hsh
    rw [wpp_bind, wpp_call]
    refine ⟨hacc _ hj, ?_, fun e _ => hE _ e (by simp)
      (Or.inr (Or.inl ⟨_, List.mem_append_right _ List.mem_cons_self⟩))⟩
    intro access _
    refine hQ _ _ (by simp) ⟨scopes, access, hj, by simp, _, rfl, ?_⟩
    unfold scopesIfChanged
    split
    · rename_i heq
      refine Or.inr ⟨rfl, ?_⟩
      rcases hsh with hn | ⟨l, hl⟩
      · rw [hn] at heq
        simp [strList, Val.pyEq] at heq
      · rw [hl] at heq
        rw [pyEq_strList] at heq
        subst heq
        exact hw _ hl
    · exact Or.inl rfl
  cases hb : blank data (py! "scope") with
  | true =>
    have hp : scopeParam data = .none := by unfold scopeParam; rw [if_pos hb]
    have hv : validateRequestedScopes env cfg (scopeParam data) client .none = .ok () := by
      rw [hp]; rfl
    rw [hv, wpp_bind, wpp_lift]
    change WpP A S Q E h _
    rw [wpp_bind, wpp_lift, post_iff]
    refine ⟨?_, fun e he => hE _ e hself (Or.inr (Or.inr ⟨_, by rw [hp]; exact Or.inl rfl, he⟩))⟩
    intro scopes hal
    refine key scopes (Or.inl ⟨blank_eq_true.mp hb, by rw [← hp]; exact hal⟩) ?_ (Or.inl hp)
    intro l hl
    rw [hp] at hl
    cases hl
  | false =>
    obtain ⟨text, ht, hne⟩ := blank_eq_false.mp hb
    have hp : scopeParam data = strList (splitWs text) := by
      unfold scopeParam; rw [if_neg (by simp [hb]), ht]; rfl
    rw [wpp_bind, wpp_lift, post_iff]
    constructor
    · intro _ hv
      rw [hp] at hv
      obtain ⟨hsup, allowed, hal, hsub⟩ := validateRequestedScopes_ok hv
      rw [wpp_bind, wpp_lift, hp, hal]
      change WpP A S Q E h _
      rw [← hp]
      refine key allowed (Or.inr ⟨text, splitWs text, ht, hne, words_iff.mpr rfl, hsup, hal, hsub⟩) ?_ (Or.inr ⟨_, hp⟩)
      intro l hl
      refine ⟨text, ht, ?_⟩
      rw [hp] at hl
      have : splitWs text = l := by
        have := pyEq_strList (a := splitWs text) (b := l)
        rw [← hl] at this
        exact this.mp (pyEq_strList.mpr rfl)
      exact words_iff.mpr this
    · intro e he
      rw [hp] at he
      rcases validateRequestedScopes_error he with ⟨d, rfl, hd⟩ | hx
      · exact hE _ _ hself (Or.inl ⟨_, rfl, libErr_scope ht hd⟩)
      · exact hE _ _ hself (Or.inr (Or.inr ⟨_, scopeArg_list _, hx⟩))

/-! ## Refresh token -/

theorem refreshScopes_ok {env : OEnv} {cfg : Config} {token : RefreshTok} {requested : Option (List PyStr)}
    {client : Client} {base : List PyStr} (h : refreshScopes env cfg token requested client = .ok base) :
    (∀ s ∈ base, s ∈ token.scopes) ∧
      (∀ l, requested = some l → l ≠ [] → (∀ s, s ∈ base ↔ s ∈ l) ∧ ∀ s ∈ l, s ∈ cfg.scopes) ∧
      ((requested = none ∨ requested = some []) → base = token.scopes) := by
  unfold refreshScopes at h
  split at h
  · cases h
  · rename_i hv
    match requested, hv, h with
    | none, _, h => cases h; simp
    | some [], _, h => cases h; simp
    | some (a :: l), hv, h =>
      dsimp only at h hv
      split at h
      · cases h
      · rename_i hany
        cases h
        simp only [Bool.not_eq_true, List.any_eq_false, decide_eq_true_eq, Decidable.not_not] at hany
        refine ⟨fun s hs => ((env.inter_mem _ _ _).mp hs).1, ?_, by simp⟩
        intro l' hl' _
        cases hl'
        refine ⟨fun s => ⟨fun hs => ((env.inter_mem _ _ _).mp hs).2, fun hs => (env.inter_mem _ _ _).mpr ⟨hany s hs, hs⟩⟩, ?_⟩
        exact (validateRequestedScopes_ok hv).1

theorem refreshScopes_error {env : OEnv} {cfg : Config} {token : RefreshTok} {requested : Option (List PyStr)}
    {client : Client} {e : OExc} (h : refreshScopes env cfg token requested client = .error e) :
    (∃ d, e = .oauth (.mk' .invalidScope (some d)) ∧ ∀ ch ∈ d, ch < 128 ∨ ∃ w ∈ requested.getD [], ch ∈ w) ∨
      ∃ v, ScopeArg v ∧ client.allowedScopes v = .error e := by
  unfold refreshScopes at h
  split at h
  · rename_i e' hv
    cases h
    cases requested with
    | none => cases hv
    | some l =>
      rcases validateRequestedScopes_error hv with ⟨d, rfl, hd⟩ | hx
      · exact Or.inl ⟨d, rfl, hd⟩
      · exact Or.inr ⟨_, scopeArg_list _, hx⟩
  · match requested, h with
    | none, h => cases h
    | some [], h => cases h
    | some (a :: l), h =>
      dsimp only at h
      split at h
      · cases h
        refine Or.inl ⟨_, rfl, fun ch hch => Or.inl ?_⟩
        exact (by decide : ∀ ch ∈ py! "Invalid broader scope.", ch < 128) ch hch
      · cases h

/-- What a successful run of the refresh token grant did. -/
structure RefreshDone (cfg : Config) (data : Dict PyStr PyStr) (client : Client) (h : List Ev)
    (token : Dict PyStr Val) : Prop where
  done : ∃ text rt user scopes access refresh,
    Dict.get data (py! "refresh_token") = some text ∧ FoundRefresh h text rt ∧
    FoundUser h rt.userId user ∧
    RefreshJustifies cfg data h client user scopes ∧
    (⟨.createAccess client (.user user) scopes, .ok access⟩ : Ev) ∈ h ∧
    (py! "refresh_token" ∈ client.grantTypes →
      ∃ t, refresh = some t ∧ (⟨.createRefresh client user scopes, .ok t⟩ : Ev) ∈ h) ∧
    (py! "refresh_token" ∉ client.grantTypes → refresh = none) ∧
    token = createToken cfg access refresh (if scopes = rt.scopes then none else some scopes)

theorem refreshJustifies_mono {cfg : Config} {data : Dict PyStr PyStr} {h h' : List Ev} {c : Client} {u : Option User}
    {scopes : List PyStr} (H : RefreshJustifies cfg data h c u scopes) (hs : h ⊆ h') :
    RefreshJustifies cfg data h' c u scopes := by
  obtain ⟨token, rt, now, base, h1, h2, h3, h4, h5, h6, h7⟩ := H
  exact ⟨token, rt, now, base, h1, hs h2, h3, hs h4, h5, hs h6, h7⟩

theorem wpp_refreshToken {env : OEnv} {cfg : Config} {data : Dict PyStr PyStr} {client : Client} {h : List Ev}
    (hS : ∀ h o, touchesStore o = false → S h o)
    (hget : ∀ t, Dict.get data (py! "refresh_token") = some t → S h (.getRefresh t))
    (hacc : ∀ h' u scopes, h ⊆ h' → RefreshJustifies cfg data h' client u scopes →
      S h' (.createAccess client (.user u) scopes))
    (href : ∀ h' u scopes, h ⊆ h' → RefreshJustifies cfg data h' client u scopes →
      py! "refresh_token" ∈ client.grantTypes → S h' (.createRefresh client u scopes))
    {Q : List Ev → Dict PyStr Val → Prop} {E : List Ev → OExc → Prop}
    (hQ : ∀ h' token, h ⊆ h' → RefreshDone cfg data client h' token → Q h' token)
    (hE : ∀ h' e, h ⊆ h' → GrantFail data client h' e → E h' e) :
    WpP A S Q E h (refreshToken env cfg data client) := by
  unfold refreshToken
  rw [wpp_ite]
  refine ⟨fun _ => hE _ _ (fun _ h => h) (Or.inl ⟨_, rfl, libErr_fixed _ _ _ (by decide)⟩), fun hbl => ?_⟩
  obtain ⟨text, ht, -⟩ := blank_eq_false.mp (by simpa using hbl)
  rw [ht, wpp_bind, wpp_call]
  refine ⟨hget _ ht, ?_, fun e _ => hE _ e (by simp)
    (Or.inr (Or.inl ⟨_, List.mem_append_right _ List.mem_cons_self⟩))⟩
  intro found _
  dsimp only [Option.getD_some]
  cases found with
  | none => exact hE _ _ (by simp) (Or.inl ⟨_, rfl, libErr_fixed _ _ _ (by decide)⟩)
  | some rt =>
    dsimp only
    generalize hh : (h ++ [(⟨.getRefresh text, .ok (some rt)⟩ : Ev)]) = h1
    have hs1 : h ⊆ h1 := by rw [← hh]; intro x hx; simp [hx]
    have hrt : FoundRefresh h1 text rt := by rw [← hh]; simp [FoundRefresh]
    clear hh
    rw [wpp_bind]
    unfold validateRefreshToken
    rw [wpp_ite]
    refine ⟨fun _ => hE _ _ hs1 (Or.inl ⟨_, rfl, libErr_plain _ _⟩), fun hcl => ?_⟩
    rw [wpp_bind, wpp_call]
    refine ⟨hS _ _ rfl, ?_, fun e _ => hE _ e (fun x hx => by simp [hs1 hx])
      (Or.inr (Or.inl ⟨_, List.mem_append_right _ List.mem_cons_self⟩))⟩
    intro now _
    generalize hh : (h1 ++ [(⟨.now, .ok now⟩ : Ev)]) = h2
    have hs2 : h1 ⊆ h2 := by rw [← hh]; intro x hx; simp [hx]
    have hnow : ReadClock h2 now := by rw [← hh]; simp [ReadClock]
    clear hh
    rw [wpp_ite]
    refine ⟨fun _ => hE _ _ (fun x hx => hs2 (hs1 hx)) (Or.inl ⟨_, rfl, libErr_fixed _ _ _ (by decide)⟩), fun hexp => ?_⟩
    rw [wpp_ret, wpp_bind, wpp_lift, post_iff]
    constructor
    rotate_left
    · intro e he
      rcases refreshScopes_error he with ⟨d, rfl, hd⟩ | hx
      · refine hE _ _ (fun x hx => hs2 (hs1 hx)) (Or.inl ⟨_, rfl, ?_⟩)
        cases hbs : blank data (py! "scope") with
        | true =>
          rw [hbs] at hd
          refine libErr_fixed _ _ _ (fun ch hch => ?_)
          rcases hd ch hch with h | ⟨w, hw, -⟩
          · exact h
          · exact absurd hw List.not_mem_nil
        | false =>
          obtain ⟨tx, htx, -⟩ := blank_eq_false.mp hbs
          rw [hbs, htx] at hd
          exact libErr_scope htx hd
      · exact hE _ _ (fun x hx => hs2 (hs1 hx)) (Or.inr (Or.inr hx))
    intro base hbase
    obtain ⟨hb1, hb2, hb3⟩ := refreshScopes_ok hbase
    rw [wpp_bind, wpp_lift, post_iff]
    constructor
    rotate_left
    · intro e he
      exact hE _ _ (fun x hx => hs2 (hs1 hx)) (Or.inr (Or.inr ⟨_, scopeArg_list _, he⟩))
    intro scopes hal
    rw [wpp_bind, wpp_call]
    refine ⟨hS _ _ rfl, ?_, fun e _ => hE _ e (fun x hx => by simp [hs2 (hs1 hx)])
      (Or.inr (Or.inl ⟨_, List.mem_append_right _ List.mem_cons_self⟩))⟩
    intro user _
    generalize hh : (h2 ++ [(⟨.findUser rt.userId, .ok user⟩ : Ev)]) = h3
    have hs3 : h2 ⊆ h3 := by rw [← hh]; intro x hx; simp [hx]
    have hu : FoundUser h3 rt.userId user := by rw [← hh]; simp [FoundUser]
    clear hh
    have hj : RefreshJustifies cfg data h3 client user scopes := by
      refine ⟨text, rt, now, base, ht, hs3 (hs2 hrt), Decidable.not_not.mp hcl, hs3 hnow, Int.not_le.mp hexp, hu, hb1, ?_, ?_, hal⟩
      · intro tx ws htx hws hne
        rw [words_iff] at hws
        subst hws
        have hbs : blank data (py! "scope") = false := by
          rw [blank_eq_false]
          refine ⟨tx, htx, ?_⟩
          rintro rfl
          exact hne rfl
        refine hb2 _ ?_ hne
        rw [if_neg (by simp [hbs]), htx]
        rfl
      · intro hno
        refine hb3 ?_
        cases hbs : blank data (py! "scope") with
        | true => simp
        | false =>
          obtain ⟨tx, htx, -⟩ := blank_eq_false.mp hbs
          right
          rw [if_neg (by simp), htx]
          exact congrArg some (hno tx _ htx (words_iff.mpr rfl))
    have hsub : h ⊆ h3 := fun x hx => hs3 (hs2 (hs1 hx))
    rw [wpp_bind, wpp_call]
    refine ⟨hacc _ _ _ hsub hj, ?_, fun e _ => hE _ e (fun x hx => by simp [hsub hx])
      (Or.inr (Or.inl ⟨_, List.mem_append_right _ List.mem_cons_self⟩))⟩
    intro access _
    generalize hh : (h3 ++ [(⟨.createAccess client (.user user) scopes, .ok access⟩ : Ev)]) = h4
    have hs4 : h3 ⊆ h4 := by rw [← hh]; intro x hx; simp [hx]
    have hac : (⟨.createAccess client (.user user) scopes, .ok access⟩ : Ev) ∈ h4 := by rw [← hh]; simp
    clear hh
    rw [wpp_bind]
    refine wpp_maybeRefresh (fun hg => href _ _ _ (fun x hx => hs4 (hsub hx)) (refreshJustifies_mono hj hs4) hg) ?_ ?_ ?_
    · intro hg t
      refine hQ _ _ (fun x hx => by simp [hs4 (hsub hx)]) ⟨text, rt, user, scopes, access, some t, ht, ?_, ?_, ?_, ?_, ?_, ?_, rfl⟩
      · exact List.mem_append_left _ (hs4 (hs3 (hs2 hrt)))
      · exact List.mem_append_left _ (hs4 hu)
      · exact refreshJustifies_mono hj (fun x hx => by simp [hs4 hx])
      · exact List.mem_append_left _ hac
      · exact fun _ => ⟨t, rfl, by simp⟩
      · exact fun hn => absurd hg hn
    · intro hn
      exact hQ _ _ (fun x hx => hs4 (hsub hx)) ⟨text, rt, user, scopes, access, none, ht, hs4 (hs3 (hs2 hrt)), hs4 hu,
        refreshJustifies_mono hj hs4, hac, fun hg => absurd hg hn, fun _ => rfl, rfl⟩
    · intro e
      exact hE _ e (fun x hx => by simp [hs4 (hsub hx)])
        (Or.inr (Or.inl ⟨_, List.mem_append_right _ List.mem_cons_self⟩))

end Psion
