import Verif.OAuth.ConsentLemmas
import Verif.Props.Authorize

/-!
# Property C61: the consent data
-/

namespace Psion.Props

open Psion Spec

/-- C61, data: consent data are returned only for a client that the adapter found under the id of the request, that is
registered for the redirect URI and the response type of the request; the scopes are what the client allows of the words of the
requested scope. -/
theorem C61_data (p : Provider) (req : Request) (tr : List Ev) (c : Client) (scopes : List PyStr)
    (h : Exec (p.consent req) tr (.ok (.data c scopes))) :
    ∃ id uri rt text ws, Dict.get req.data (py! "client_id") = some id ∧ FoundClient tr id c ∧
      Dict.get req.data (py! "redirect_uri") = some uri ∧ uri ∈ c.redirectUris ∧
      Dict.get req.data (py! "response_type") = some rt ∧ rt ∈ c.responseTypes ∧
      Dict.get req.data (py! "scope") = some text ∧ Words text ws ∧ c.allowedScopes (strList ws) = .ok scopes ∧
      (Narrows c → ∀ s ∈ scopes, s ∈ ws) := by
  rcases wpp_exec_ok h (wpp_consent p.cfg req) answers_true with ⟨c', s', heq, hd⟩ | ⟨x, r, heq, -⟩
  · cases heq
    obtain ⟨id, uri, rt, text, ws, h1, h2, h3, h4, h5, h6, h7, h8, h9⟩ := hd
    exact ⟨id, uri, rt, text, ws, h1, h2, h3, h4, h5, h6, h7, h8, h9, fun hn s hs => hn ws scopes h9 s hs⟩
  · cases heq

/-- C61, errors: an error is redirected to the error page of the provider or to a redirect URI that is registered for the client
of the request, unless the adapter raised an `OAuth2Error` while it looked up the client. -/
theorem C61_redirect_partial (p : Provider) (req : Request) (tr : List Ev) (r : Response)
    (hl : ∀ id x, (⟨.findClient id, .error (.oauth x)⟩ : Ev) ∉ tr) (h : Exec (p.consent req) tr (.ok (.redirect r))) :
    ∃ url x, RedirectsTo r url (OErr.params x) ∧ (url = p.cfg.errorUrl ∨ RegisteredUri req tr url) := by
  rcases wpp_exec_ok h (wpp_consent p.cfg req) answers_true with ⟨c', s', heq, hd⟩ | ⟨x, r', heq, hf, hr⟩
  · cases heq
  · cases heq
    obtain ⟨url, h1, h2⟩ := authorizationError_ok hr
    refine ⟨url, x, h1, ?_⟩
    rcases h2 with ⟨-, h2⟩ | ⟨hk, hu⟩
    · exact Or.inl h2
    · right
      have key : ∀ uri, RegisteredUri req tr uri → RegisteredUri req tr url := by
        rintro uri ⟨id, c, h1, h2, h3, h4⟩
        rw [hu] at h3
        cases h3
        exact ⟨id, c, h1, h2, hu, h4⟩
      generalize he : OExc.oauth x = e at hf
      cases hf with
      | fatal d _ => cases he; exact absurd rfl hk
      | lookup uri id e _ h2 => subst he; exact absurd h2 (hl id x)
      | responseType uri h1 => exact key uri h1
      | scope uri h1 => exact key uri h1
      | client uri id c v e h1 _ _ => exact key uri h1

/-- C61: the only thing `get_consent_data` does is to look up the client of the request; nothing is stored or deleted. -/
theorem C61_read_only (p : Provider) (req : Request) (pre post : List Ev) (ev : Ev)
    (h : Partial (p.consent req) (pre ++ ev :: post)) :
    ∃ id, Dict.get req.data (py! "client_id") = some id ∧ ev.op = .findClient id :=
  wpp_partial h (wpp_consent p.cfg req) answers_true rfl

/-- A run of `get_consent_data` of the toy provider. -/
def toyConsent (orc : List Ev → (o : Op) → ORes o.Ans) (req : Request) : List Ev × ORes Consent :=
  Prog.run orc [] (toyProvider.consent req)

/-- Is the outcome consent data for these scopes? -/
def isConsent (id : PyStr) (scopes : List PyStr) : ORes Consent → Bool
  | .ok (.data c s) => decide (c.clientId = id ∧ s = scopes)
  | _ => false

/-- Is the outcome a redirect to this location? -/
def isConsentRedirect (loc : PyStr) : ORes Consent → Bool
  | .ok (.redirect r) => decide (r.status = 303 ∧ location r = some loc)
  | _ => false

/-- A request for a scope that the client is not allowed to request, among others. -/
example : isConsent (py! "c1") [py! "read", py! "openid"]
    (toyConsent toyUsual (toyGet (Dict.set toyAuthQuery (py! "scope") (py! "read admin openid")) none)).2 = true := by
  decide +kernel

example : isConsentRedirect (py! "https://s/error?error=invalid_request&error_description=Invalid+Redirect+URI.")
    (toyConsent toyUsual (toyGet (toyEvil toyAuthQuery) none)).2 = true := by decide +kernel

/-- An adapter that raises an error when it looks up a client. -/
def toyFailing : List Ev → (o : Op) → ORes o.Ans
  | _, .findClient _ => .error (.oauth (.mk' .temporarilyUnavailable))
  | h, o => toyUsual h o

/-- C61 is false if the adapter raises an `OAuth2Error` while it looks up the client: the error is sent to the redirect URI of
the request, which nobody has checked. -/
theorem C61_lookup_refuted :
    isConsentRedirect (py! "https://evil/?error=temporarily_unavailable")
      (toyConsent toyFailing (toyGet (toyEvil toyAuthQuery) none)).2 = true := by decide +kernel

end Psion.Props
