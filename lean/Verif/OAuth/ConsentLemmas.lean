import Verif.OAuth.RedirectLemmas

/-!
# The consent data: lemmas
-/

namespace Psion

open Spec

/-- The consent data and where they come from. -/
def ConsentDone (req : Request) (h : List Ev) (c : Client) (scopes : List PyStr) : Prop :=
  ∃ id uri rt text ws, Dict.get req.data (py! "client_id") = some id ∧ FoundClient h id c ∧
    Dict.get req.data (py! "redirect_uri") = some uri ∧ uri ∈ c.redirectUris ∧
    Dict.get req.data (py! "response_type") = some rt ∧ rt ∈ c.responseTypes ∧
    Dict.get req.data (py! "scope") = some text ∧ Words text ws ∧ c.allowedScopes (strList ws) = .ok scopes

/-- Why `get_consent_data` fails. -/
inductive ConsentFail (req : Request) (h : List Ev) : OExc → Prop
  /-- An error for the error page of the provider. -/
  | fatal (d : PyStr) : (∀ ch ∈ d, ch < 128) → ConsentFail req h (.oauth (.fatal (py! "invalid_request") d))
  /-- The lookup of the client raised. -/
  | lookup (uri id : PyStr) (e : OExc) : Dict.get req.data (py! "redirect_uri") = some uri →
      (⟨.findClient id, .error e⟩ : Ev) ∈ h → ConsentFail req h e
  /-- The response type is not registered for the client. -/
  | responseType (uri : PyStr) : RegisteredUri req h uri →
      ConsentFail req h (.oauth (.mk' .unauthorizedClient none (Dict.get req.data (py! "state"))))
  /-- The request has no scope. -/
  | scope (uri : PyStr) : RegisteredUri req h uri →
      ConsentFail req h (invalidRequest (py! "Missing required parameter \"scope\"."))
  /-- The client raised. -/
  | client (uri id : PyStr) (c : Client) (v : Val) (e : OExc) : RegisteredUri req h uri → FoundClient h id c →
      ScopeArg v → c.allowedScopes v = .error e → ConsentFail req h e

/-- Rule for the `try` block of `get_consent_data`. -/
theorem wpp_consentBody (req : Request) :
    WpP (fun _ _ => True) (fun _ o => ∃ id, Dict.get req.data (py! "client_id") = some id ∧ o = .findClient id)
      (fun h a => ∃ c scopes, a = .data c scopes ∧ ConsentDone req h c scopes) (ConsentFail req) [] (consentBody req) := by
  unfold consentBody
  dsimp only
  rw [wpp_bind, wpp_lift, post_iff]
  refine ⟨?_, ?_⟩
  rotate_left
  · intro e he
    obtain ⟨d, hd, rfl⟩ := validateRequest_error he
    exact .fatal d hd
  rintro ⟨⟩ hv
  obtain ⟨uri, id, rt, hu, hi, hr⟩ := validateRequest_ok hv
  rw [wpp_bind, param_ok hi, wpp_lift]
  change WpP _ _ _ _ _ _
  rw [wpp_bind, param_ok hu, wpp_lift]
  change WpP _ _ _ _ _ _
  rw [wpp_bind, param_ok hr, wpp_lift]
  change WpP _ _ _ _ _ _
  rw [wpp_bind]
  refine wpp_validateClient ⟨id, hi, rfl⟩ ?_ (fun h' d hd => .fatal d hd) ?_ ?_
  · intro c hreg hrt
    have hf : FoundClient ([] ++ [(⟨.findClient id, .ok (some c)⟩ : Ev)]) id c := by simp [FoundClient]
    generalize ([] ++ [(⟨.findClient id, .ok (some c)⟩ : Ev)]) = h0 at hf ⊢
    have hru : RegisteredUri req h0 uri := ⟨id, c, hi, hf, hu, hreg⟩
    rw [wpp_ite]
    refine ⟨fun _ => .scope uri hru, fun hs => ?_⟩
    obtain ⟨text, ht, -⟩ := blank_eq_false.mp (by simpa using hs)
    rw [wpp_bind, wpp_lift, post_iff]
    refine ⟨?_, fun e he => .client uri id c _ e hru hf (scopeArg_list _) he⟩
    intro scopes hsc
    rw [ht] at hsc
    exact ⟨c, scopes, rfl, id, uri, rt, text, splitWs text, hi, hf, hu, hreg, hr, hrt, ht, words_iff.mpr rfl, hsc⟩
  · intro c hreg _
    exact .responseType uri ⟨id, c, hi, by simp [FoundClient], hu, hreg⟩
  · intro e
    exact .lookup uri id e hu (List.mem_append_right _ List.mem_cons_self)

/-- Rule for `get_consent_data`. -/
theorem wpp_consent (cfg : Config) (req : Request) :
    WpP (fun _ _ => True) (fun _ o => ∃ id, Dict.get req.data (py! "client_id") = some id ∧ o = .findClient id)
      (fun h a => (∃ c scopes, a = .data c scopes ∧ ConsentDone req h c scopes) ∨
        ∃ (x : OErr) (r : Response), a = .redirect r ∧ ConsentFail req h (.oauth x) ∧ authorizationError cfg req.data x = .ok r)
      (fun h e => (ConsentFail req h e ∧ ∃ x, e = .py x) ∨
        ∃ x : OErr, ConsentFail req h (.oauth x) ∧ authorizationError cfg req.data x = .error e)
      [] (consentEndpoint cfg req) := by
  unfold consentEndpoint
  rw [wpp_catch]
  refine wpp_mono (wpp_consentBody req) (fun _ _ h => h) (fun _ _ h => Or.inl h) ?_
  intro h e he
  cases e with
  | oauth x =>
    dsimp only [caught]
    rw [wpp_bind, wpp_lift, post_iff]
    exact ⟨fun r hr => Or.inr ⟨x, r, rfl, he, hr⟩, fun e he' => Or.inr ⟨x, he, he'⟩⟩
  | py x => exact Or.inl ⟨he, x, rfl⟩

end Psion
