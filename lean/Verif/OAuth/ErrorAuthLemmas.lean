import Verif.OAuth.ErrorLemmas
import Verif.OAuth.ConsentLemmas
import Verif.OAuth.RevokeLemmas
import Verif.Props.Token

/-!
# Why the authorization and the revocation endpoint refuse requests: lemmas
-/

namespace Psion

open Spec

theorem wp_and {α : Type} {A : List Ev → Ev → Prop} {S S' : List Ev → Op → Prop} {Q Q' : List Ev → α → Prop} (p : Prog α) :
    ∀ h, Wp A S Q h p → Wp A S' Q' h p → Wp A S (fun h a => Q h a ∧ Q' h a) h p := by
  induction p with
  | done a => intro h h1 h2; exact ⟨h1, h2⟩
  | op o k ih => intro h h1 h2; exact ⟨h1.1, fun r hr => ih r _ (h1.2 r hr) (h2.2 r hr)⟩

/-- Two rules for the same coroutine. -/
theorem wpp_and {α : Type} {A : List Ev → Ev → Prop} {S S' : List Ev → Op → Prop} {Q Q' : List Ev → α → Prop}
    {E E' : List Ev → OExc → Prop} {h : List Ev} {p : P α} (h1 : WpP A S Q E h p) (h2 : WpP A S' Q' E' h p) :
    WpP A S (fun h a => Q h a ∧ Q' h a) (fun h e => E h e ∧ E' h e) h p := by
  refine wp_mono (fun _ _ h => h) ?_ p h (wp_and p h h1 h2)
  intro h r hr
  cases r with
  | ok a => exact hr
  | error e => exact hr

/-- What is known when the authorization endpoint raises an `OAuth2Error`. -/
def AuthBlame (table : Hooks) (p : Provider) (req : Request) (h : List Ev) (e : OExc) : Prop :=
  ∀ x, e = .oauth x → AppRaises table h x ∨
    ∃ f : AuthFault, f.Holds p req h ∧ x.error = some f.rfc ∧ (x.kind = .fatal ↔ f.atHome = true) ∧
      (f.atHome = true → ∃ d, d ≠ [] ∧ x.description = some d ∧ x.uri = none ∧ x.state = none)

theorem ablame_app {table : Hooks} {p : Provider} {req : Request} {h : List Ev} {o : Op} {e : OExc}
    (hm : (⟨o, .error e⟩ : Ev) ∈ h) : AuthBlame table p req h e := by
  rintro x rfl
  exact Or.inl (Or.inl ⟨o, hm⟩)

theorem ablame_client {table : Hooks} {p : Provider} {req : Request} {h : List Ev} {e : OExc} {c : Client} {id : PyStr}
    (hc : FoundClient h id c) {v : Val} (hsa : ScopeArg v) (hv : c.allowedScopes v = .error e) : AuthBlame table p req h e := by
  rintro x rfl
  exact Or.inl (Or.inr (Or.inr (Or.inr (Or.inr (Or.inr ⟨id, c, v, hc, hsa, hv⟩)))))

theorem ablame_fatal {table : Hooks} {p : Provider} {req : Request} {h : List Ev} {d : PyStr}
    (f : AuthFault) (hf : f.Holds p req h) (hr : f.rfc = py! "invalid_request") (hh : f.atHome = true)
    (hd : d ≠ [] := by decide) :
    AuthBlame table p req h (.oauth (.fatal (py! "invalid_request") d)) := by
  rintro x ⟨⟩
  exact Or.inr ⟨f, hf, by rw [hr]; rfl, iff_of_true rfl hh, fun _ => ⟨d, hd, rfl, rfl, rfl⟩⟩

theorem ablame_fault {table : Hooks} {p : Provider} {req : Request} {h : List Ev} {kind : ErrKind} {d st : Option PyStr}
    (f : AuthFault) (hf : f.Holds p req h) (hk : kind.code = f.rfc) (hn : kind ≠ .fatal) (hh : f.atHome = false) :
    AuthBlame table p req h (.oauth (.mk' kind d st)) := by
  rintro x ⟨⟩
  exact Or.inr ⟨f, hf, by rw [← hk]; rfl, iff_of_false hn (by simp [hh]), fun h => by simp [hh] at h⟩

theorem missing_iff {data : Dict PyStr PyStr} {k : PyStr} : blank data k = true ↔ Missing data k := blank_eq_true

theorem missing_del {data : Dict PyStr PyStr} {k : PyStr} (hk : k ≠ py! "response_type")
    (h : blank (Dict.del data (py! "response_type")) k = true) : Missing data k := by
  have := blank_eq_true.mp h
  rw [Dict.get_del _ hk] at this
  exact this

/-- The rule for the required parameters. -/
theorem ablames_request {table : Hooks} {p : Provider} {req : Request} {h : List Ev} {e : OExc}
    (he : validateRequest req.data = .error e) : AuthBlame table p req h e := by
  unfold validateRequest at he
  split at he
  · rename_i h0
    cases he
    exact ablame_fatal .noParameters h0 rfl rfl
  · split at he
    · rename_i h0
      cases he
      exact ablame_fatal .noRedirectUri (missing_iff.mp h0) rfl rfl
    · split at he
      · rename_i h0
        cases he
        exact ablame_fatal .noClientId (missing_iff.mp h0) rfl rfl
      · split at he
        · rename_i h0
          cases he
          exact ablame_fatal .noResponseType (missing_iff.mp h0) rfl rfl
        · cases he

/-- The rule for the lookup and the checks of the client. -/
theorem ablames_client {table : Hooks} {p : Provider} {req : Request} {id uri rt : PyStr} {st : Option PyStr} {h : List Ev}
    {Q : List Ev → Client → Prop}
    (hi : Dict.get req.data (py! "client_id") = some id) (hu : Dict.get req.data (py! "redirect_uri") = some uri)
    (hr : Dict.get req.data (py! "response_type") = some rt)
    (hQ : ∀ c, FoundClient (h ++ [(⟨.findClient id, .ok (some c)⟩ : Ev)]) id c →
      Eligible req (h ++ [(⟨.findClient id, .ok (some c)⟩ : Ev)]) c → Q (h ++ [(⟨.findClient id, .ok (some c)⟩ : Ev)]) c) :
    WpP (fun _ _ => True) (fun _ _ => True) Q (AuthBlame table p req) h (validateClient id uri rt st) := by
  unfold validateClient
  rw [wpp_bind, wpp_call]
  refine ⟨trivial, ?_, fun e _ => ablame_app (List.mem_append_right _ List.mem_cons_self)⟩
  intro found _
  cases found with
  | none => exact ablame_fatal .clientUnknown ⟨id, hi, by simp⟩ rfl rfl
  | some c =>
    have hf : FoundClient (h ++ [(⟨.findClient id, .ok (some c)⟩ : Ev)]) id c := by simp [FoundClient]
    dsimp only
    rw [wpp_ite, wpp_ite]
    refine ⟨fun hn => ablame_fatal .uriNotRegistered ⟨c, uri, ⟨id, hi, hf⟩, hu, hn⟩ rfl rfl, fun hreg => ⟨fun hn => ?_, fun hrt => ?_⟩⟩
    · exact ablame_fault .responseTypeNotRegistered ⟨c, rt, ⟨id, hi, hf⟩, hr, hn⟩ rfl (by decide) rfl
    · exact hQ c hf ⟨⟨id, hi, hf⟩, ⟨uri, hu, Decidable.not_not.mp hreg⟩, rt, hr, Decidable.not_not.mp hrt⟩

theorem ablames_params {table : Hooks} {p : Provider} {req : Request} {h : List Ev} {c : Client} (hel : Eligible req h c)
    {e : OExc} (he : authorizationParams (Dict.del req.data (py! "response_type")) = .error e) :
    AuthBlame table p req h e := by
  unfold authorizationParams at he
  dsimp only at he
  split at he
  · rename_i hb
    cases he
    exact ablame_fault .noChallenge ⟨c, hel, missing_del (by decide) hb⟩ rfl (by decide) rfl
  · rename_i hb
    obtain ⟨ch, hch, -⟩ := blank_eq_false.mp (by simpa using hb)
    rw [hch] at he
    rw [Dict.get_del _ (by decide)] at hch
    simp only [Option.getD_some] at he
    split at he
    · rename_i hlen
      cases he
      exact ablame_fault .challengeLength ⟨c, ch, hel, hch, hlen⟩ rfl (by decide) rfl
    · split at he
      · rename_i hm
        cases he
        rw [Dict.get_del _ (by decide)] at hm
        refine ablame_fault .challengeMethod ⟨c, hel, ?_⟩ rfl (by decide) rfl
        intro m hm'
        rw [hm] at hm'
        cases hm'
      · rename_i m hm
        rw [Dict.get_del _ (by decide)] at hm
        split at he
        · rename_i hmem
          cases he
          refine ablame_fault .challengeMethod ⟨c, hel, ?_⟩ rfl (by decide) rfl
          intro m' hm'
          rw [hm] at hm'
          cases hm'
          simpa [challengeMethods] using hmem
        · split at he
          · rename_i hs
            cases he
            exact ablame_fault .noScope ⟨c, hel, missing_del (by decide) hs⟩ rfl (by decide) rfl
          · split at he
            · cases he
              exact nofun
            · cases he

theorem eligible_mono {req : Request} {h h' : List Ev} {c : Client} (H : Eligible req h c) (hs : h ⊆ h') :
    Eligible req h' c := by
  obtain ⟨⟨id, h1, h2⟩, h3⟩ := H
  exact ⟨⟨id, h1, hs h2⟩, h3⟩

/-- Rule for the authorization of the code grant. -/
theorem ablames_codeAuthorize {env : OEnv} {table : Hooks} (hb : Benign table) {p : Provider} {req : Request} {c : Client}
    {user : User} {h : List Ev} (hel : Eligible req h c) :
    WpP (fun _ _ => True) (fun _ _ => True) (fun _ _ => True) (AuthBlame table p req) h
      (codeAuthorize env p.cfg table (Dict.del req.data (py! "response_type")) c user) := by
  unfold codeAuthorize validateAuthorizationRequest
  rw [wpp_bind, wpp_bind, wpp_lift, post_iff]
  refine ⟨?_, fun e he => ablames_params hel he⟩
  intro d hd
  have hp := authorizationParams_ok hd
  have hbr := benign_authRequest hb (Dict.del req.data (py! "response_type"))
  refine wpp_runHooks hbr (fun _ _ _ => trivial) ?_ ?_
  rotate_left
  · intro tr e hx hr
    rintro x rfl
    obtain ⟨f, hf, acc', tr', -, hs, hx⟩ := hr
    obtain ⟨g, hg, rfl⟩ := List.mem_map.mp hf
    exact Or.inl (Or.inr (Or.inl ⟨g, hg, _, tr', fun _ h => List.mem_append_right _ (hs.subset h), hx⟩))
  intro tr valid _ hk
  have hp := authParams_keys hp hk
  have hel := eligible_mono hel (List.subset_append_left h tr)
  generalize h ++ tr = h1 at hel ⊢
  obtain ⟨text, ht, hsc⟩ := hp.scopes
  rw [Dict.get_del _ (by decide)] at ht
  rw [wpp_bind, item_ok hsc, wpp_lift]
  change WpP _ _ _ _ h1 _
  rw [wpp_bind, wpp_lift, post_iff]
  refine ⟨?_, ?_⟩
  rotate_left
  · intro e he
    obtain ⟨id, -, hf⟩ := hel.1
    rcases validateRequestedScopes_refuses he with ⟨d, rfl, ⟨s, hs, hn⟩ | ⟨s, hs, hn⟩⟩ | hx
    · exact ablame_fault .scopeUnsupported ⟨c, hel, text, _, ht, words_iff.mpr rfl, s, hs, hn⟩ rfl (by decide) rfl
    · exact ablame_fault .scopeNotAllowed ⟨c, hel, text, _, ht, words_iff.mpr rfl, s, hs, hn⟩ rfl (by decide) rfl
    · exact ablame_client hf (scopeArg_list _) hx
  intro _ _
  rw [wpp_bind, wpp_call]
  refine ⟨trivial, ?_, fun e _ => ablame_app (List.mem_append_right _ List.mem_cons_self)⟩
  intro choices _
  rw [wpp_bind, wpp_lift, post_liftRes]
  refine ⟨?_, fun _ _ => nofun⟩
  intro code _
  rw [wpp_bind]
  refine wpp_call.mpr ⟨trivial, ?_, fun e _ => ablame_app (List.mem_append_right _ List.mem_cons_self)⟩
  intro _ _
  rw [wpp_bind]
  refine wpp_runHooks (benign_authResponse hb code valid c user) (fun _ _ _ => trivial) ?_ ?_
  · intro tr response _ _
    obtain ⟨uri', hu1, hu2⟩ := hp.uri
    rw [wpp_bind, item_ok hu2, wpp_lift]
    change WpP _ _ _ _ _ _
    rw [wpp_lift, post_iff]
    refine ⟨fun _ _ => trivial, ?_⟩
    intro e he
    unfold urlencodeVals at he
    split at he
    · cases he; exact nofun
    · revert he
      cases urlencode _ _ <;> intro he <;> cases he
      exact nofun
  · intro tr e hx hr
    rintro x rfl
    obtain ⟨f, hf, acc', tr', -, hs, hx⟩ := hr
    obtain ⟨g, hg, rfl⟩ := List.mem_map.mp hf
    exact Or.inl (Or.inr (Or.inr (Or.inl ⟨g, hg, _, _, _, _, tr', fun _ h => List.mem_append_right _ (hs.subset h), hx⟩)))

/-- Rule for the `try` block of the authorization endpoint. -/
theorem ablames_authorizeBody {env : OEnv} {table : Hooks} (hb : Benign table) {p : Provider} {req : Request} :
    WpP (fun _ _ => True) (fun _ _ => True) (fun _ _ => True) (AuthBlame table p req) []
      (authorizeBody (p.objects env table) req) := by
  unfold authorizeBody
  dsimp only
  rw [wpp_bind, wpp_lift, post_iff]
  refine ⟨?_, fun e he => ablames_request he⟩
  rintro ⟨⟩ hv
  obtain ⟨uri, id, rt, hu, hi, hr⟩ := validateRequest_ok hv
  cases huser : req.user with
  | none => exact ablame_fault .notLoggedIn huser rfl (by decide) rfl
  | some user =>
    dsimp only
    rw [wpp_bind, param_ok hr, wpp_lift]
    change WpP _ _ _ _ _ _
    have hu' : Dict.get (Dict.del req.data (py! "response_type")) (py! "redirect_uri") = some uri := by
      rw [Dict.get_del _ (by decide)]; exact hu
    have hi' : Dict.get (Dict.del req.data (py! "response_type")) (py! "client_id") = some id := by
      rw [Dict.get_del _ (by decide)]; exact hi
    rw [wpp_bind, wpp_lift, post_iff]
    refine ⟨?_, ?_⟩
    rotate_left
    · intro e he
      obtain ⟨h1, rfl⟩ := validateResponseType_error he
      exact ablame_fault .unknownResponseType ⟨rt, hr, h1⟩ rfl (by decide) rfl
    intro grant hgrant
    obtain ⟨hg, rfl, rfl⟩ := validateResponseType_ok hgrant
    rw [wpp_bind, param_ok hi', wpp_lift]
    change WpP _ _ _ _ _ _
    rw [wpp_bind, param_ok hu', wpp_lift]
    change WpP _ _ _ _ _ _
    rw [wpp_bind]
    refine ablames_client hi hu hr ?_
    intro c _ hel
    rw [wpp_bind]
    refine wpp_mono (ablames_codeAuthorize hb hel) (fun _ _ h => h) ?_ (fun _ _ h => h)
    intro h' url _
    rw [wpp_lift, post_liftRes]
    exact ⟨fun _ _ => trivial, fun _ _ => nofun⟩

/-- Rule for the `try` block of `get_consent_data`. -/
theorem ablames_consentBody {table : Hooks} {p : Provider} {req : Request} :
    WpP (fun _ _ => True) (fun _ _ => True) (fun _ a => ∃ c scopes, a = .data c scopes) (AuthBlame table p req) []
      (consentBody req) := by
  unfold consentBody
  dsimp only
  rw [wpp_bind, wpp_lift, post_iff]
  refine ⟨?_, fun e he => ablames_request he⟩
  rintro ⟨⟩ hv
  obtain ⟨uri, id, rt, hu, hi, hr⟩ := validateRequest_ok hv
  rw [wpp_bind, param_ok hi, wpp_lift]
  change WpP _ _ _ _ _ _
  rw [wpp_bind, param_ok hu, wpp_lift]
  change WpP _ _ _ _ _ _
  rw [wpp_bind, param_ok hr, wpp_lift]
  change WpP _ _ _ _ _ _
  rw [wpp_bind]
  refine ablames_client hi hu hr ?_
  intro c hf hel
  rw [wpp_ite]
  refine ⟨fun hs => ablame_fault .noScope ⟨c, hel, missing_iff.mp hs⟩ rfl (by decide) rfl, fun _ => ?_⟩
  rw [wpp_bind, wpp_lift, post_iff]
  exact ⟨fun scopes _ => ⟨c, scopes, rfl⟩, fun e he => ablame_client hf (scopeArg_list _) he⟩

/-! ## Revocation -/

/-- Rule for the `try` block of the revocation endpoint. -/
theorem wpp_revokeBody_blame (env : OEnv) (req : Request) :
    WpP (fun _ _ => True) (fun _ _ => True) (fun _ a => ∀ r, a = some r → r.status = 200 ∧ r.headers = parseHeaders (some (py! "application/json")) [])
      (fun h e => ∀ x, e = .oauth x → (∃ o, (⟨o, .error (.oauth x)⟩ : Ev) ∈ h) ∨
        (x.kind = .invalidClient ∧ x.error = some (py! "invalid_client") ∧ LibHeaders req h x.headers ∧ Rejected req none h) ∨
        (x.kind = .unsupportedTokenType ∧ x.error = some (py! "unsupported_token_type") ∧ x.headers = [] ∧
          ∃ c hint, Authenticated req none h c ∧ Dict.get req.form (py! "token_type_hint") = some hint ∧
            hint ≠ [] ∧ hint ≠ py! "access_token" ∧ hint ≠ py! "refresh_token"))
      [] (revokeBody env req) := by
  unfold revokeBody
  rw [wpp_bind]
  refine wpp_authenticate_rejects (fun _ => trivial) ?_ ?_ (fun _ => nofun) ?_
  · intro m id c hp hm ha
    have hau : Authenticated req none ([] ++ [(⟨.findClient id, .ok (some c)⟩ : Ev)]) c :=
      ⟨m, id, by simp [FoundClient], hp, hm, ha⟩
    generalize ([] ++ [(⟨.findClient id, .ok (some c)⟩ : Ev)]) = h0 at hau ⊢
    dsimp only
    rw [wpp_ite]
    refine ⟨fun _ => nofun, fun _ => ?_⟩
    rw [wpp_ite]
    refine ⟨?_, fun _ => ?_⟩
    · intro hh
      rw [Bool.and_eq_true] at hh
      obtain ⟨hint, hg, hne⟩ := blank_eq_false.mp (by simpa using hh.1)
      rintro x ⟨⟩
      refine Or.inr (Or.inr ⟨rfl, rfl, rfl, c, hint, hau, hg, hne, ?_⟩)
      have := hh.2
      rw [hg] at this
      simpa [supportedTokens] using this
    · rw [wpp_bind]
      refine wpp_call.mpr ⟨trivial, ?_, ?_⟩
      · intro _ _
        rw [wpp_bind, wpp_lift, post_liftRes]
        refine ⟨?_, fun _ _ => nofun⟩
        rintro r hr _ ⟨⟩
        exact Props.jsonResponse_status hr
      · rintro e _ x rfl
        exact Or.inl ⟨_, List.mem_append_right _ List.mem_cons_self⟩
  · rintro h' d hd hlh hrej x ⟨⟩
    exact Or.inr (Or.inl ⟨rfl, rfl, hlh, hrej⟩)
  · rintro id e x rfl
    exact Or.inl ⟨_, List.mem_append_right _ List.mem_cons_self⟩

end Psion
