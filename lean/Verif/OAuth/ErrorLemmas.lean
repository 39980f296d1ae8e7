import Verif.OAuth.TokenLemmas
import Verif.OAuth.AuthorizeLemmas
import Verif.Props.Token
import Verif.Spec.Errors

/-!
# Why requests are refused: lemmas
-/

namespace Psion

open Spec

variable {A : List Ev → Ev → Prop} {S : List Ev → Op → Prop} {E : List Ev → OExc → Prop}

/-! ## Client authentication -/

/-- What `authenticate` has done so far: every allowed method tried found nothing. -/
theorem wpp_checkClient_rejects {m : AuthMethod} {hd : Dict PyStr PyStr} {id : PyStr} {sec : Option PyStr}
    {Q : List Ev → Option Client → Prop} {h : List Ev} (hS : S h (.findClient id))
    (hQ : ∀ c : Client, c.secret = sec → c.authMethod = m.name →
      Q (h ++ [⟨.findClient id, .ok (some c)⟩]) (some c))
    (hE : ∀ h' d, ((⟨.findClient id, .ok none⟩ : Ev) ∈ h' ∨
      ∃ c, FoundClient h' id c ∧ (c.secret ≠ sec ∨ c.authMethod ≠ m.name)) →
      E h' (.oauth (.mk' .invalidClient d none hd)))
    (hX : ∀ e, E (h ++ [⟨.findClient id, .error e⟩]) e) :
    WpP A S Q E h (checkClient m hd id sec) := by
  unfold checkClient
  rw [wpp_bind, wpp_call]
  refine ⟨hS, ?_, fun e _ => hX e⟩
  intro r _
  cases r with
  | none => exact hE _ _ (Or.inl (by simp))
  | some c =>
    have hf : FoundClient (h ++ [(⟨.findClient id, .ok (some c)⟩ : Ev)]) id c := by simp [FoundClient]
    dsimp only
    rw [wpp_ite, wpp_ite]
    exact ⟨fun h1 => hE _ _ (Or.inr ⟨c, hf, Or.inl h1⟩), fun h1 => ⟨fun h2 => hE _ _ (Or.inr ⟨c, hf, Or.inr h2⟩),
      fun h2 => hQ c (Decidable.not_not.mp h1) (Decidable.not_not.mp h2)⟩⟩

/-- The headers of an error of the library. -/
def LibHeaders (req : Request) (h : List Ev) (hd : Dict PyStr PyStr) : Prop :=
  hd = [] ∨ hd = [(py! "WWW-Authenticate", py! "Basic")] ∧ BasicRejected req h

/-- Rule for one authentication method: it finds nothing, a client, or credentials that are rejected. -/
theorem wpp_run_rejects {req : Request} {m : AuthMethod} {Q : List Ev → Option Client → Prop} {h : List Ev}
    (hS : ∀ id, S h (.findClient id))
    (hN : (∀ id s, ¬ Presents req m id s) → Q h none)
    (hQ : ∀ id (c : Client), Presents req m id c.secret → c.authMethod = m.name →
      Q (h ++ [⟨.findClient id, .ok (some c)⟩]) (some c))
    (hE : ∀ h' d hd, LibHeaders req h' hd → (∃ id s, Presents req m id s ∧ ((⟨.findClient id, .ok none⟩ : Ev) ∈ h' ∨
      ∃ c, FoundClient h' id c ∧ (c.secret ≠ s ∨ c.authMethod ≠ m.name))) →
      E h' (.oauth (.mk' .invalidClient d none hd)))
    (hP : ∀ x, E h (.py x))
    (hX : ∀ id e, E (h ++ [⟨.findClient id, .error e⟩]) e) :
    WpP A S Q E h (m.run req) := by
  cases m with
  | basic =>
    change WpP A S Q E h (authBasic req)
    unfold authBasic
    rw [wpp_bind, wpp_lift, post_liftRes]
    refine ⟨?_, fun e _ => hP e⟩
    intro cred hcred
    match cred, hcred with
    | none, hcred =>
      refine hN ?_
      intro id s hp
      cases hp with | basic _ _ h _ _ => rw [← credentials_iff, hcred] at h; cases h
    | some (id, sec), hcred =>
      dsimp only
      rw [wpp_ite]
      refine ⟨fun hne => ?_, fun hne => ?_⟩
      · refine hN ?_
        intro id' s hp
        cases hp with
        | basic _ _ h h1 h2 =>
          rw [← credentials_iff, hcred] at h
          cases h
          rcases hne with hne | hne
          · exact h1 hne
          · exact h2 hne
      rw [not_or] at hne
      have hp : Presents req .basic id (some sec) := .basic id sec (credentials_iff.mp hcred) hne.1 hne.2
      exact wpp_checkClient_rejects (hS id) (fun c hsec hm => hQ id c (by rw [hsec]; exact hp) hm)
        (fun h' d hr => hE h' d _ (Or.inr ⟨rfl, id, _, hp, hr⟩) ⟨id, _, hp, hr⟩) (hX id)
  | post =>
    change WpP A S Q E h (authPost req)
    unfold authPost
    split
    · rename_i id sec h1 h2
      rw [wpp_ite]
      refine ⟨fun hne => ?_, fun hne => ?_⟩
      · refine hN ?_
        intro id' s hp
        cases hp with
        | post _ _ g1 g2 g3 g4 =>
          rw [h1] at g1
          rw [h2] at g2
          cases g1
          cases g2
          rcases hne with hne | hne
          · exact g3 hne
          · exact g4 hne
      rw [not_or] at hne
      have hp : Presents req .post id (some sec) := .post id sec h1 h2 hne.1 hne.2
      exact wpp_checkClient_rejects (hS id) (fun c hsec hm => hQ id c (by rw [hsec]; exact hp) hm)
        (fun h' d hr => hE h' d _ (Or.inl rfl) ⟨id, _, hp, hr⟩) (hX id)
    · rename_i hne
      refine hN ?_
      intro id' s hp
      cases hp with
      | post _ _ g1 g2 g3 g4 => exact hne _ _ g1 g2
  | none_ =>
    change WpP A S Q E h (authNone req)
    unfold authNone
    split
    · rename_i id h1 h2
      rw [wpp_ite]
      refine ⟨fun hne => ?_, fun hne => ?_⟩
      · refine hN ?_
        intro id' s hp
        cases hp with
        | none_ _ g1 g2 g3 =>
          rw [h1] at g1
          cases g1
          exact g3 hne
      have hp : Presents req .none_ id none := .none_ id h1 h2 hne
      exact wpp_checkClient_rejects (hS id) (fun c hsec hm => hQ id c (by rw [hsec]; exact hp) hm)
        (fun h' d hr => hE h' d _ (Or.inl rfl) ⟨id, _, hp, hr⟩) (hX id)
    · rename_i hne
      refine hN ?_
      intro id' s hp
      cases hp with
      | none_ _ g1 g2 g3 => exact hne _ g1 g2

/-- Rule for client authentication. -/
theorem wpp_authenticate_rejects {req : Request} {methods : Option (List PyStr)} {Q : List Ev → Client → Prop}
    {h : List Ev} (hS : ∀ id, S h (.findClient id))
    (hQ : ∀ m id (c : Client), Presents req m id c.secret → c.authMethod = m.name → Allows methods m →
      Q (h ++ [⟨.findClient id, .ok (some c)⟩]) c)
    (hE : ∀ h' d hd, LibHeaders req h' hd → Rejected req methods h' → E h' (.oauth (.mk' .invalidClient d none hd)))
    (hP : ∀ x, E h (.py x))
    (hX : ∀ id e, E (h ++ [⟨.findClient id, .error e⟩]) e) :
    WpP A S Q E h (authenticate req methods) := by
  unfold authenticate
  have key : ∀ ms : List AuthMethod, (∀ m, m ∈ ms ∨ ∀ id s, Allows methods m → ¬ Presents req m id s) →
      WpP A S Q E h (authLoop req methods ms) := by
    intro ms
    induction ms with
    | nil =>
      intro hms
      refine hE _ none [] (Or.inl rfl) (Or.inl ?_)
      intro m id s ha
      rcases hms m with hm | hm
      · cases hm
      · exact hm id s ha
    | cons m ms ih =>
      intro hms
      unfold authLoop
      rw [wpp_ite]
      refine ⟨fun hen => ?_, fun hen => ?_⟩
      · have hal := methodEnabled_allows.mp hen
        rw [wpp_bind]
        refine wpp_run_rejects hS ?_ (fun id c hp hm => hQ m id c hp hm hal) ?_ hP hX
        · intro hno
          refine ih ?_
          intro m'
          rcases hms m' with hm | hm
          · rcases List.mem_cons.mp hm with rfl | hm
            · exact Or.inr (fun id s _ => hno id s)
            · exact Or.inl hm
          · exact Or.inr hm
        · rintro h' d hd hlh ⟨id, s, hp, hr⟩
          exact hE h' d hd hlh (Or.inr ⟨m, id, s, hal, hp, hr⟩)
      · refine ih ?_
        intro m'
        rcases hms m' with hm | hm
        · rcases List.mem_cons.mp hm with rfl | hm
          · exact Or.inr (fun id s ha => absurd (methodEnabled_allows.mpr ha) hen)
          · exact Or.inl hm
        · exact Or.inr hm
  refine key _ (fun m => Or.inl ?_)
  cases m <;> decide

/-! ## Scopes -/

/-- Why the requested scopes are refused. -/
theorem validateRequestedScopes_refuses {env : OEnv} {cfg : Config} {l : List PyStr} {client : Client} {state : Val}
    {e : OExc} (h : validateRequestedScopes env cfg (strList l) client state = .error e) :
    (∃ d, e = .oauth (.mk' .invalidScope (some d) (stateText env state)) ∧
      ((∃ s ∈ l, s ∉ cfg.scopes) ∨ ∃ s ∈ l, NotAllowed client l s)) ∨
      client.allowedScopes (strList l) = .error e := by
  unfold validateRequestedScopes at h
  rw [if_neg (by simp [strList, Val.isNone])] at h
  simp only [strList, iterVal, liftRes] at h
  split at h
  · rename_i v hv
    cases h
    refine Or.inl ⟨_, rfl, Or.inl ?_⟩
    unfold unsupportedScope at hv
    obtain ⟨w, hw, rfl⟩ := List.mem_map.mp (List.mem_of_find?_eq_some hv)
    have := List.find?_some hv
    refine ⟨w, hw, fun hc => ?_⟩
    rw [inList_str.mpr hc] at this
    cases this
  · split at h
    · rename_i e' hal
      cases h
      exact Or.inr hal
    · rename_i allowed hal
      split at h
      · cases h
      · rename_i hsub
        cases h
        refine Or.inl ⟨_, rfl, Or.inr ?_⟩
        unfold subsetVals at hsub
        rw [List.all_eq_true] at hsub
        apply Classical.byContradiction
        intro hno
        refine hsub ?_
        intro v hv
        obtain ⟨s, hs, rfl⟩ := List.mem_map.mp hv
        rw [inList_str]
        apply Classical.byContradiction
        intro hn
        exact hno ⟨s, hs, allowed, hal, hn⟩

/-! ## Token endpoint -/

/-- What is known when the token endpoint raises an `OAuth2Error`. -/
def TokenBlame (env : OEnv) (table : Hooks) (p : Provider) (req : Request) (h : List Ev) (e : OExc) : Prop :=
  ∀ x, e = .oauth x → AppRaises table h x ∨
    (LibHeaders req h x.headers ∧ ∃ f : TokenFault, f.Holds env p req h ∧ x.error = some f.sent)

theorem blame_py {env : OEnv} {table : Hooks} {p : Provider} {req : Request} {h : List Ev} {x : Exc} :
    TokenBlame env table p req h (.py x) := nofun

theorem blame_app {env : OEnv} {table : Hooks} {p : Provider} {req : Request} {h : List Ev} {o : Op} {e : OExc}
    (hm : (⟨o, .error e⟩ : Ev) ∈ h) : TokenBlame env table p req h e := by
  rintro x rfl
  exact Or.inl (Or.inl ⟨o, hm⟩)

theorem blame_client {env : OEnv} {table : Hooks} {p : Provider} {req : Request} {h : List Ev} {e : OExc} {c : Client}
    (hc : ∃ id, FoundClient h id c) {v : Val} (hsa : ScopeArg v) (hv : c.allowedScopes v = .error e) : TokenBlame env table p req h e := by
  rintro x rfl
  obtain ⟨id, hc⟩ := hc
  exact Or.inl (Or.inr (Or.inr (Or.inr (Or.inr (Or.inr ⟨id, c, v, hc, hsa, hv⟩)))))

theorem blame_fault {env : OEnv} {table : Hooks} {p : Provider} {req : Request} {h : List Ev} {kind : ErrKind}
    {d st : Option PyStr} (f : TokenFault) (hf : f.Holds env p req h) (hk : kind.code = f.sent) :
    TokenBlame env table p req h (.oauth (.mk' kind d st)) := by
  rintro x ⟨⟩
  exact Or.inr ⟨Or.inl rfl, f, hf, by rw [← hk]; rfl⟩

theorem blame_requestHook {env : OEnv} {table : Hooks} {p : Provider} {req : Request} {h : List Ev} {e : OExc}
    {reserved : List PyStr} {data : Dict PyStr PyStr} {acc : Dict PyStr Val}
    (hr : HookRaises reserved (tokenRequestHooks table data) acc h e) : TokenBlame env table p req h e := by
  rintro x rfl
  obtain ⟨f, hf, acc', tr, -, hs, hx⟩ := hr
  obtain ⟨g, hg, rfl⟩ := List.mem_map.mp hf
  exact Or.inl (Or.inr (Or.inr (Or.inr (Or.inl ⟨g, hg, _, tr, hs.subset, hx⟩))))

theorem blame_responseHook {env : OEnv} {table : Hooks} {p : Provider} {req : Request} {h : List Ev} {e : OExc}
    {reserved : List PyStr} {data : Dict PyStr Val} {c : Client} {u : User} {acc : Dict PyStr Val}
    (hr : HookRaises reserved (tokenResponseHooks table data c u) acc h e) : TokenBlame env table p req h e := by
  rintro x rfl
  obtain ⟨f, hf, acc', tr, -, hs, hx⟩ := hr
  obtain ⟨g, hg, rfl⟩ := List.mem_map.mp hf
  exact Or.inl (Or.inr (Or.inr (Or.inr (Or.inr (Or.inl ⟨g, hg, _, _, _, _, tr, hs.subset, hx⟩)))))

theorem foundOf_authenticated {req : Request} {m : Option (List PyStr)} {h : List Ev} {c : Client}
    (H : Authenticated req m h c) : ∃ id, FoundClient h id c := by
  obtain ⟨_, id, h1, -⟩ := H
  exact ⟨id, h1⟩

theorem admitted_mono {p : Provider} {req : Request} {g : GrantClass} {h h' : List Ev} {c : Client}
    (H : Admitted p req h g c) (hs : h ⊆ h') : Admitted p req h' g c :=
  ⟨H.1, authenticated_mono H.2.1 hs, H.2.2⟩

theorem missing_of_blank {data : Dict PyStr PyStr} {k : PyStr} (hk : k ≠ py! "grant_type")
    (h : blank (Dict.del data (py! "grant_type")) k = true) : Missing data k := by
  have := blank_eq_true.mp h
  rw [Dict.get_del _ hk] at this
  exact this

theorem ofCode_mono {req : Request} {h h' : List Ev} {ac : AuthCode} (H : OfCode req h ac) (hs : h ⊆ h') :
    OfCode req h' ac := by
  obtain ⟨code, h1, h2⟩ := H
  exact ⟨code, h1, hs h2⟩

theorem ofRefresh_mono {req : Request} {h h' : List Ev} {rt : RefreshTok} (H : OfRefresh req h rt) (hs : h ⊆ h') :
    OfRefresh req h' rt := by
  obtain ⟨t, h1, h2⟩ := H
  exact ⟨t, h1, hs h2⟩

theorem scopeStage_mono {p : Provider} {req : Request} {h h' : List Ev} {c : Client} (H : ScopeStage p req h c)
    (hs : h ⊆ h') : ScopeStage p req h' c := by
  rcases H with H | ⟨H, rt, h1, h2⟩
  · exact Or.inl (admitted_mono H hs)
  · exact Or.inr ⟨admitted_mono H hs, rt, ofRefresh_mono h1 hs, h2⟩

theorem basicRejected_mono {req : Request} {h h' : List Ev} (H : BasicRejected req h) (hs : h ⊆ h') : BasicRejected req h' := by
  obtain ⟨id, s, h1, h3 | ⟨c, h3, h4⟩⟩ := H
  · exact ⟨id, s, h1, Or.inl (hs h3)⟩
  · exact ⟨id, s, h1, Or.inr ⟨c, hs h3, h4⟩⟩

theorem rejected_mono {req : Request} {m : Option (List PyStr)} {h h' : List Ev} (H : Rejected req m h) (hs : h ⊆ h') :
    Rejected req m h' := by
  rcases H with H | ⟨m, id, s, h1, h2, h3 | ⟨c, h3, h4⟩⟩
  · exact Or.inl H
  · exact Or.inr ⟨m, id, s, h1, h2, Or.inl (hs h3)⟩
  · exact Or.inr ⟨m, id, s, h1, h2, Or.inr ⟨c, hs h3, h4⟩⟩

theorem holds_mono {env : OEnv} {p : Provider} {req : Request} {h h' : List Ev} {f : TokenFault}
    (H : f.Holds env p req h) (hs : h ⊆ h') : f.Holds env p req h' := by
  cases f with
  | noParameters | noGrantType | unknownGrantType => exact H
  | clientRejected =>
    obtain ⟨g, h1, h2⟩ := H
    exact ⟨g, h1, rejected_mono h2 hs⟩
  | grantNotRegistered =>
    obtain ⟨g, c, h1, h2, h3⟩ := H
    exact ⟨g, c, h1, authenticated_mono h2 hs, h3⟩
  | noCode | noRedirectUri | noVerifier | noRefreshToken =>
    obtain ⟨c, h1, h2⟩ := H
    exact ⟨c, admitted_mono h1 hs, h2⟩
  | codeUnknown | refreshUnknown =>
    obtain ⟨c, t, h1, h2, h3⟩ := H
    exact ⟨c, t, admitted_mono h1 hs, h2, hs h3⟩
  | uriNotRegistered | uriOfOther | verifierWrong =>
    obtain ⟨c, ac, u, h1, h2, h3⟩ := H
    exact ⟨c, ac, u, admitted_mono h1 hs, ofCode_mono h2 hs, h3⟩
  | codeOfOther | transformUnknown =>
    obtain ⟨c, ac, h1, h2, h3⟩ := H
    exact ⟨c, ac, admitted_mono h1 hs, ofCode_mono h2 hs, h3⟩
  | codeExpired =>
    obtain ⟨c, ac, now, h1, h2, h3, h4⟩ := H
    exact ⟨c, ac, now, admitted_mono h1 hs, ofCode_mono h2 hs, hs h3, h4⟩
  | codeUserUnknown =>
    obtain ⟨c, ac, h1, h2, h3⟩ := H
    exact ⟨c, ac, admitted_mono h1 hs, ofCode_mono h2 hs, hs h3⟩
  | refreshOfOther | scopeBroader =>
    obtain ⟨c, rt, h1, h2, h3⟩ := H
    exact ⟨c, rt, admitted_mono h1 hs, ofRefresh_mono h2 hs, h3⟩
  | refreshExpired =>
    obtain ⟨c, rt, now, h1, h2, h3, h4⟩ := H
    exact ⟨c, rt, now, admitted_mono h1 hs, ofRefresh_mono h2 hs, hs h3, h4⟩
  | scopeUnsupported | scopeNotAllowed =>
    obtain ⟨c, h1, h2⟩ := H
    exact ⟨c, scopeStage_mono h1 hs, h2⟩

theorem pkce_run_false {env : OEnv} {ac : AuthCode} {v : PyStr}
    (h : runChallenge env ac.challengeMethod ac.challenge (.str v) = some (.ok false)) : ¬ PkceOk env ac v := by
  rintro (⟨hm, hc⟩ | ⟨hm, hasc, hc⟩)
  · unfold runChallenge at h
    rw [if_pos hm] at h
    simp only [Option.some.injEq, Except.ok.injEq, plainChallenge] at h
    rw [pyEq_text.mpr hc] at h
    cases h
  · unfold runChallenge at h
    rw [if_neg (by rw [hm]; decide), if_pos hm] at h
    simp only [Option.some.injEq] at h
    unfold s256Challenge toBytesAscii at h
    dsimp only at h
    rw [if_pos (by rw [List.all_eq_true]; intro c hcm; simpa using hasc c hcm)] at h
    simp only [Except.ok.injEq, decide_eq_false_iff_not] at h
    rw [toStringB_b64url] at h
    exact h hc

/-- The rule of a coroutine of which only the exceptions matter. -/
abbrev Blames (env : OEnv) (table : Hooks) (p : Provider) (req : Request) {α : Type} (h : List Ev) (q : P α) : Prop :=
  WpP (fun _ _ => True) (fun _ _ => True) (fun _ _ => True) (TokenBlame env table p req) h q

theorem blames_validateAuthorizationCode {env : OEnv} {table : Hooks} {p : Provider} {req : Request} {valid : Dict PyStr Val}
    {code uri verifier : PyStr} (hv : ValidCodeData (Dict.del req.data (py! "grant_type")) valid code uri verifier)
    {ac : AuthCode} {c : Client} {h : List Ev} (hadm : Admitted p req h .authorizationCode c)
    (hac : FoundCode h (.str code) ac) {Q : List Ev → Unit → Prop} (hQ : ∀ now, Q (h ++ [⟨.now, .ok now⟩]) ()) :
    WpP (fun _ _ => True) (fun _ _ => True) Q (TokenBlame env table p req) h (validateAuthorizationCode env valid ac c) := by
  have hof : OfCode req h ac := ⟨code, by rw [← del_code]; exact hv.dcode, hac⟩
  have huri : Dict.get req.data (py! "redirect_uri") = some uri := by rw [← del_uri]; exact hv.duri
  have hver : Dict.get req.data (py! "code_verifier") = some verifier := by rw [← del_verifier]; exact hv.dverifier
  unfold validateAuthorizationCode
  rw [wpp_bind, item_ok hv.vuri, wpp_lift]
  change WpP _ _ _ _ h _
  rw [wpp_ite]
  refine ⟨fun h1 => blame_fault .uriNotRegistered ⟨c, ac, uri, hadm, hof, huri, ?_⟩ rfl, fun h1 => ?_⟩
  · intro hm
    rw [inList_str.mpr hm] at h1
    cases h1
  rw [wpp_ite]
  refine ⟨fun h2 => blame_fault .codeOfOther ⟨c, ac, hadm, hof, fun he => h2 he.symm⟩ rfl, fun h2 => ?_⟩
  rw [wpp_ite]
  refine ⟨fun h3 => blame_fault .uriOfOther ⟨c, ac, uri, hadm, hof, huri, ?_⟩ rfl, fun h3 => ?_⟩
  · intro he
    rw [pyEq_text.mpr he] at h3
    cases h3
  rw [wpp_ite]
  refine ⟨fun h4 => blame_fault .transformUnknown ⟨c, ac, hadm, hof, ?_⟩ rfl, fun h4 => ?_⟩
  · simpa [challengeMethods] using h4
  rw [wpp_bind, item_ok hv.vverifier, wpp_lift]
  change WpP _ _ _ _ h _
  split
  · exact blame_py
  · exact blame_py
  · rename_i ok hr
    rw [wpp_ite]
    refine ⟨fun h5 => blame_fault .verifierWrong ⟨c, ac, verifier, hadm, hof, hver, ?_⟩ rfl, fun h5 => ?_⟩
    · have : ok = false := by simpa using h5
      rw [this] at hr
      exact pkce_run_false hr
    rw [wpp_bind, wpp_call]
    refine ⟨trivial, ?_, fun e _ => blame_app (List.mem_append_right _ List.mem_cons_self)⟩
    intro now _
    rw [wpp_ite]
    refine ⟨fun h6 => ?_, fun _ => hQ now⟩
    have hs : h ⊆ h ++ [(⟨.now, .ok now⟩ : Ev)] := List.subset_append_left _ _
    exact blame_fault .codeExpired ⟨c, ac, now, admitted_mono hadm hs, ofCode_mono hof hs, by simp [ReadClock], h6⟩ rfl

theorem blames_codeTokenBody {env : OEnv} {table : Hooks} (hb : Benign table) {p : Provider} {req : Request}
    {valid : Dict PyStr Val} {code uri verifier : PyStr}
    (hv : ValidCodeData (Dict.del req.data (py! "grant_type")) valid code uri verifier) {c : Client} {h : List Ev}
    (hadm : Admitted p req h .authorizationCode c) :
    Blames env table p req h (codeTokenBody env p.cfg table valid c) := by
  have hcode : Dict.get req.data (py! "code") = some code := by rw [← del_code]; exact hv.dcode
  unfold codeTokenBody
  rw [Blames, wpp_bind, item_ok hv.vcode, wpp_lift]
  change WpP _ _ _ _ h _
  rw [wpp_bind, wpp_call]
  refine ⟨trivial, ?_, fun e _ => blame_app (List.mem_append_right _ List.mem_cons_self)⟩
  intro found _
  have hs1 : h ⊆ h ++ [(⟨.getCode (.str code), .ok found⟩ : Ev)] := List.subset_append_left _ _
  have hfc : (⟨.getCode (.str code), .ok found⟩ : Ev) ∈ h ++ [(⟨.getCode (.str code), .ok found⟩ : Ev)] := by simp
  generalize h ++ [(⟨.getCode (.str code), .ok found⟩ : Ev)] = h1 at hs1 hfc ⊢
  have hadm := admitted_mono hadm hs1
  cases found with
  | none => exact blame_fault .codeUnknown ⟨c, code, hadm, hcode, hfc⟩ rfl
  | some ac =>
    dsimp only
    rw [wpp_bind]
    refine blames_validateAuthorizationCode hv hadm hfc ?_
    intro now
    have hs2 : h1 ⊆ h1 ++ [(⟨.now, .ok now⟩ : Ev)] := List.subset_append_left _ _
    generalize h1 ++ [(⟨.now, .ok now⟩ : Ev)] = h2 at hs2 ⊢
    rw [wpp_bind, wpp_call]
    refine ⟨trivial, ?_, fun e _ => blame_app (List.mem_append_right _ List.mem_cons_self)⟩
    intro user _
    have hs3 : h2 ⊆ h2 ++ [(⟨.findUser ac.userId, .ok user⟩ : Ev)] := List.subset_append_left _ _
    have hfu : FoundUser (h2 ++ [(⟨.findUser ac.userId, .ok user⟩ : Ev)]) ac.userId user := by simp [FoundUser]
    generalize h2 ++ [(⟨.findUser ac.userId, .ok user⟩ : Ev)] = h3 at hs3 hfu ⊢
    cases user with
    | none =>
      exact blame_fault .codeUserUnknown ⟨c, ac, admitted_mono hadm (fun x hx => hs3 (hs2 hx)),
        ⟨code, hcode, hs3 (hs2 hfc)⟩, hfu⟩ rfl
    | some user =>
      dsimp only
      rw [wpp_bind, wpp_call]
      refine ⟨trivial, ?_, fun e _ => blame_app (List.mem_append_right _ List.mem_cons_self)⟩
      intro access _
      rw [wpp_bind]
      have hfin : ∀ h' refresh, WpP (fun _ _ => True) (fun _ _ => True) (fun _ _ => True) (TokenBlame env table p req) h'
          (runHooks (createToken p.cfg access refresh (some ac.scopes))
            (table.tokenResponse.map (fun h token => h token valid c user))) := by
        intro h' refresh
        refine wpp_runHooks (benign_tokenResponse hb valid c user) (fun _ _ _ => trivial) (fun _ _ _ _ => trivial) ?_
        intro tr e _ hr
        exact blame_responseHook (hookRaises_mono hr (List.suffix_append _ _).isInfix)
      exact wpp_maybeRefresh (fun _ => trivial) (fun _ t => hfin _ _) (fun _ => hfin _ _)
        (fun e => blame_app (List.mem_append_right _ List.mem_cons_self))

theorem tokenBlame_mono {env : OEnv} {table : Hooks} {p : Provider} {req : Request} {h h' : List Ev} {e : OExc}
    (H : TokenBlame env table p req h e) (hs : h ⊆ h') : TokenBlame env table p req h' e := by
  intro x hx
  rcases H x hx with H | ⟨hh, f, hf, hc⟩
  · refine Or.inl ?_
    rcases H with ⟨o, H⟩ | ⟨f, hf, d, tr, ht, H⟩ | ⟨f, hf, cd, d, c, u, tr, ht, H⟩ | ⟨f, hf, d, tr, ht, H⟩ |
      ⟨f, hf, t, d, c, u, tr, ht, H⟩ | ⟨id, c, v, hc, H⟩
    · exact Or.inl ⟨o, hs H⟩
    · exact Or.inr (Or.inl ⟨f, hf, d, tr, fun _ hx => hs (ht hx), H⟩)
    · exact Or.inr (Or.inr (Or.inl ⟨f, hf, cd, d, c, u, tr, fun _ hx => hs (ht hx), H⟩))
    · exact Or.inr (Or.inr (Or.inr (Or.inl ⟨f, hf, d, tr, fun _ hx => hs (ht hx), H⟩)))
    · exact Or.inr (Or.inr (Or.inr (Or.inr (Or.inl ⟨f, hf, t, d, c, u, tr, fun _ hx => hs (ht hx), H⟩))))
    · exact Or.inr (Or.inr (Or.inr (Or.inr (Or.inr ⟨id, c, v, hs hc, H⟩))))
  · exact Or.inr ⟨hh.imp id (fun h => ⟨h.1, basicRejected_mono h.2 hs⟩), f, holds_mono hf hs, hc⟩

theorem blames_codeToken {env : OEnv} {table : Hooks} (hb : Benign table) {p : Provider} {req : Request} {c : Client}
    {h : List Ev} (hadm : Admitted p req h .authorizationCode c) :
    Blames env table p req h (codeToken env p.cfg table (Dict.del req.data (py! "grant_type")) c) := by
  have hdel : ∀ (code : ORes Val) (h' : List Ev) (e : OExc), TokenBlame env table p req h' e →
      (∀ x, code = .error x → ∃ y, x = .py y) →
      WpP (fun _ _ => True) (fun _ _ => True) (fun h _ => TokenBlame env table p req h e) (TokenBlame env table p req) h'
        (deleteCode code) := by
    intro code h' e he hc
    unfold deleteCode
    rw [wpp_bind, wpp_lift, post_iff]
    refine ⟨?_, ?_⟩
    · intro v _
      refine (wpp_call (o := .deleteCode v) (Q := fun h _ => TokenBlame env table p req h e)).mpr
        ⟨trivial, fun _ _ => tokenBlame_mono he (List.subset_append_left _ _),
          fun e _ => blame_app (List.mem_append_right _ List.mem_cons_self)⟩
    · intro x hx
      obtain ⟨y, rfl⟩ := hc x hx
      exact blame_py
  unfold codeToken
  rw [Blames, wpp_pbind]
  have hs : ∀ tr, h ⊆ h ++ tr := fun tr => List.subset_append_left _ _
  unfold validateCodeTokenRequest
  rw [wpp_bind, wpp_lift, post_iff]
  refine ⟨?_, ?_⟩
  · intro d hd
    obtain ⟨code, uri, verifier, hv⟩ := codeTokenParams_ok hd
    refine wpp_runHooks (benign_tokenRequest hb _) (fun _ _ _ => trivial) ?_ ?_
    · intro tr valid _ hk
      have hv : ValidCodeData (Dict.del req.data (py! "grant_type")) valid code uri verifier := by
        refine ⟨hv.dcode, hv.duri, hv.dverifier, ?_, ?_, ?_⟩
        · rw [hk _ (by simp), hv.vcode]
        · rw [hk _ (by simp), hv.vuri]
        · rw [hk _ (by simp), hv.vverifier]
      dsimp only
      rw [wpp_finally, item_ok hv.vcode]
      refine wpp_mono (blames_codeTokenBody hb hv (admitted_mono hadm (hs tr))) (fun _ _ h => h) ?_ ?_
      · intro h' token _
        unfold deleteCode
        rw [wpp_bind, wpp_lift]
        refine (wpp_call (o := .deleteCode (.str code)) (Q := fun _ _ => True)).mpr
          ⟨trivial, fun _ _ => trivial, fun e _ => blame_app (List.mem_append_right _ List.mem_cons_self)⟩
      · intro h' e he
        exact hdel _ h' e he nofun
    · intro tr e _ hr
      dsimp only
      rw [wpp_finally, wpp_raise]
      refine hdel _ _ e (blame_requestHook (hookRaises_mono hr (List.suffix_append _ _).isInfix)) ?_
      intro x hx
      split at hx
      · cases hx
      · cases hx; exact ⟨_, rfl⟩
  · intro e he
    dsimp only
    rw [wpp_finally, wpp_raise]
    refine hdel _ _ e ?_ ?_
    · unfold codeTokenParams at he
      split at he
      · rename_i hbl
        cases he
        exact blame_fault .noCode ⟨c, hadm, missing_of_blank (by decide) hbl⟩ rfl
      · split at he
        · rename_i hbl
          cases he
          exact blame_fault .noRedirectUri ⟨c, hadm, missing_of_blank (by decide) hbl⟩ rfl
        · split at he
          · rename_i hbl
            cases he
            exact blame_fault .noVerifier ⟨c, hadm, missing_of_blank (by decide) hbl⟩ rfl
          · cases he
    · intro x hx
      split at hx
      · cases hx
      · cases hx; exact ⟨_, rfl⟩

/-- Faults of the requested scopes. -/
theorem blame_scopes {env : OEnv} {table : Hooks} {p : Provider} {req : Request} {c : Client} {h : List Ev}
    (hst : ScopeStage p req h c) (hc : ∃ id, FoundClient h id c) {text : PyStr}
    (ht : Dict.get req.data (py! "scope") = some text) {st : Val} {e : OExc}
    (he : validateRequestedScopes env p.cfg (strList (splitWs text)) c st = .error e) : TokenBlame env table p req h e := by
  rcases validateRequestedScopes_refuses he with ⟨d, rfl, ⟨s, hs, hn⟩ | ⟨s, hs, hn⟩⟩ | hx
  · exact blame_fault .scopeUnsupported ⟨c, hst, text, _, ht, words_iff.mpr rfl, s, hs, hn⟩ rfl
  · exact blame_fault .scopeNotAllowed ⟨c, hst, text, _, ht, words_iff.mpr rfl, s, hs, hn⟩ rfl
  · exact blame_client hc (scopeArg_list _) hx

theorem blames_credentialsToken {env : OEnv} {table : Hooks} {p : Provider} {req : Request} {c : Client}
    {h : List Ev} (hadm : Admitted p req h .clientCredentials c) :
    Blames env table p req h (credentialsToken env p.cfg (Dict.del req.data (py! "grant_type")) c) := by
  have hc := foundOf_authenticated hadm.2.1
  unfold credentialsToken
  dsimp only
  rw [Blames, wpp_bind, wpp_lift, post_iff]
  refine ⟨?_, ?_⟩
  · intro _ _
    rw [wpp_bind, wpp_lift, post_iff]
    refine ⟨?_, fun e he => blame_client hc (scopeArg_param _) he⟩
    intro scopes _
    rw [wpp_bind, wpp_call]
    exact ⟨trivial, fun _ _ => trivial, fun e _ => blame_app (List.mem_append_right _ List.mem_cons_self)⟩
  · intro e he
    unfold scopeParam at he
    split at he
    · cases he
    · rename_i hbl
      obtain ⟨text, ht, -⟩ := blank_eq_false.mp (by simpa using hbl)
      rw [ht] at he
      rw [del_scope] at ht
      exact blame_scopes (Or.inl hadm) hc ht he

theorem blames_refreshToken {env : OEnv} {table : Hooks} {p : Provider} {req : Request} {c : Client}
    {h : List Ev} (hadm : Admitted p req h .refreshToken c) :
    Blames env table p req h (refreshToken env p.cfg (Dict.del req.data (py! "grant_type")) c) := by
  unfold refreshToken
  rw [Blames, wpp_ite]
  refine ⟨fun hbl => blame_fault .noRefreshToken ⟨c, hadm, missing_of_blank (by decide) hbl⟩ rfl, fun hbl => ?_⟩
  obtain ⟨text, ht, -⟩ := blank_eq_false.mp (by simpa using hbl)
  rw [ht, wpp_bind, wpp_call]
  rw [del_refresh] at ht
  refine ⟨trivial, ?_, fun e _ => blame_app (List.mem_append_right _ List.mem_cons_self)⟩
  intro found _
  dsimp only [Option.getD_some]
  have hs1 : h ⊆ h ++ [(⟨.getRefresh text, .ok found⟩ : Ev)] := List.subset_append_left _ _
  have hfr : (⟨.getRefresh text, .ok found⟩ : Ev) ∈ h ++ [(⟨.getRefresh text, .ok found⟩ : Ev)] := by simp
  generalize h ++ [(⟨.getRefresh text, .ok found⟩ : Ev)] = h1 at hs1 hfr ⊢
  have hadm := admitted_mono hadm hs1
  cases found with
  | none => exact blame_fault .refreshUnknown ⟨c, text, hadm, ht, hfr⟩ rfl
  | some rt =>
    have hof : OfRefresh req h1 rt := ⟨text, ht, hfr⟩
    dsimp only
    rw [wpp_bind]
    unfold validateRefreshToken
    rw [wpp_ite]
    refine ⟨fun hcl => blame_fault .refreshOfOther ⟨c, rt, hadm, hof, hcl⟩ rfl, fun hcl => ?_⟩
    rw [wpp_bind, wpp_call]
    refine ⟨trivial, ?_, fun e _ => blame_app (List.mem_append_right _ List.mem_cons_self)⟩
    intro now _
    have hs2 : h1 ⊆ h1 ++ [(⟨.now, .ok now⟩ : Ev)] := List.subset_append_left _ _
    have hnow : ReadClock (h1 ++ [(⟨.now, .ok now⟩ : Ev)]) now := by simp [ReadClock]
    generalize h1 ++ [(⟨.now, .ok now⟩ : Ev)] = h2 at hs2 hnow ⊢
    have hadm := admitted_mono hadm hs2
    have hof : OfRefresh req h2 rt := ⟨text, ht, hs2 hfr⟩
    rw [wpp_ite]
    refine ⟨fun hexp => blame_fault .refreshExpired ⟨c, rt, now, hadm, hof, hnow, hexp⟩ rfl, fun _ => ?_⟩
    have hc := foundOf_authenticated hadm.2.1
    rw [wpp_ret, wpp_bind, wpp_lift, post_iff]
    refine ⟨?_, ?_⟩
    · intro base _
      rw [wpp_bind, wpp_lift, post_iff]
      refine ⟨?_, fun e he => blame_client hc (scopeArg_list _) he⟩
      intro scopes _
      rw [wpp_bind, wpp_call]
      refine ⟨trivial, ?_, fun e _ => blame_app (List.mem_append_right _ List.mem_cons_self)⟩
      intro user _
      rw [wpp_bind, wpp_call]
      refine ⟨trivial, ?_, fun e _ => blame_app (List.mem_append_right _ List.mem_cons_self)⟩
      intro access _
      rw [wpp_bind]
      exact wpp_maybeRefresh (fun _ => trivial) (fun _ t => trivial) (fun _ => trivial)
        (fun e => blame_app (List.mem_append_right _ List.mem_cons_self))
    · intro e he
      have hst : ScopeStage p req h2 c := Or.inr ⟨hadm, rt, hof, Decidable.not_not.mp hcl⟩
      cases hbs : blank (Dict.del req.data (py! "grant_type")) (py! "scope") with
      | true =>
        rw [hbs, if_pos rfl] at he
        cases he
      | false =>
        obtain ⟨sc, hsc, -⟩ := blank_eq_false.mp hbs
        rw [hbs, if_neg (by simp), hsc] at he
        rw [del_scope] at hsc
        unfold refreshScopes at he
        dsimp only [Option.getD_some] at he
        split at he
        · rename_i e' hv
          cases he
          exact blame_scopes hst hc hsc hv
        · revert he
          cases hws : splitWs sc with
          | nil => intro he; cases he
          | cons w ws =>
            intro he
            dsimp only at he
            split at he
            · rename_i hany
              cases he
              rw [List.any_eq_true] at hany
              obtain ⟨s, hs, hn⟩ := hany
              exact blame_fault .scopeBroader ⟨c, rt, hadm, hof, sc, _, hsc, words_iff.mpr hws, s, hs, by simpa using hn⟩ rfl
            · cases he

/-- Rule for the body of the token endpoint. -/
theorem blames_tokenBody {env : OEnv} {table : Hooks} (hb : Benign table) {p : Provider} {req : Request} :
    WpP (fun _ _ => True) (fun _ _ => True) (fun _ r => r.status = 200) (TokenBlame env table p req) []
      (tokenBody env (p.objects env table) req) := by
  unfold tokenBody
  dsimp only
  rw [wpp_ite]
  refine ⟨fun h0 => blame_fault .noParameters h0 rfl, fun _ => ?_⟩
  rw [wpp_bind, wpp_lift, post_iff]
  refine ⟨?_, ?_⟩
  rotate_left
  · intro e he
    unfold validateGrantType at he
    split at he
    · rename_i ch s hgt
      split at he
      · cases he
      · rename_i hfind
        cases he
        refine blame_fault .unknownGrantType ⟨ch :: s, hgt, by simp, ?_⟩ rfl
        intro k hk heq
        rw [List.find?_eq_none] at hfind
        refine hfind (grantOf env p.cfg table k) (List.mem_map.mpr ⟨k, hk, rfl⟩) ?_
        rw [decide_eq_true_eq, grantOf_type, heq]
    · rename_i hgt
      cases he
      refine blame_fault .noGrantType ?_ rfl
      show _ ∨ _
      cases hg : Dict.get req.data (py! "grant_type") with
      | none => exact Or.inl rfl
      | some l =>
        cases l with
        | nil => exact Or.inr rfl
        | cons a l => exact absurd hg (hgt a l)
  intro grant hgrant
  obtain ⟨g, hg, hgt, rfl⟩ := validateGrantType_ok hgrant
  have hasks : AsksFor p req g := ⟨hg, hgt⟩
  rw [wpp_bind, grantOf_methods, grantOf_type]
  refine wpp_authenticate_rejects (fun _ => trivial) ?_ ?_ (fun _ => blame_py)
    (fun id e => blame_app (List.mem_append_right _ List.mem_cons_self))
  · intro m id c hpres hm hallow
    have hauth : Authenticated req (grantMethods g) ([] ++ [(⟨.findClient id, .ok (some c)⟩ : Ev)]) c :=
      ⟨m, id, by simp [FoundClient], hpres, hm, hallow⟩
    generalize ([] ++ [(⟨.findClient id, .ok (some c)⟩ : Ev)]) = h0 at hauth ⊢
    rw [wpp_ite]
    refine ⟨fun hreg => blame_fault .grantNotRegistered ⟨g, c, hasks, hauth, hreg⟩ rfl, fun hreg => ?_⟩
    have hadm : Admitted p req h0 g c := ⟨hasks, hauth, Decidable.not_not.mp hreg⟩
    rw [wpp_bind]
    have hfin : ∀ (h' : List Ev) (token : Dict PyStr Val),
        WpP (fun _ _ => True) (fun _ _ => True) (fun _ r => r.status = 200) (TokenBlame env table p req) h'
          (P.lift (liftRes (jsonResponse env.cr.fe 200 noStoreHeaders (.dict token)))) := by
      intro h' token
      rw [wpp_lift, post_liftRes]
      exact ⟨fun _ hr => (Props.jsonResponse_status hr).1, fun _ _ => blame_py⟩
    have hgr : Blames env table p req h0 ((grantOf env p.cfg table g).token (Dict.del req.data (py! "grant_type")) c) := by
      cases g with
      | authorizationCode => exact blames_codeToken hb hadm
      | clientCredentials => exact blames_credentialsToken hadm
      | refreshToken => exact blames_refreshToken hadm
    exact wpp_mono hgr (fun _ _ h => h) (fun h' token _ => hfin h' token) (fun _ _ h => h)
  · intro h' d hd hlh hrej
    rintro x ⟨⟩
    exact Or.inr ⟨hlh, .clientRejected, ⟨g, hasks, hrej⟩, rfl⟩

end Psion
