import Verif.Props.Errors

/-!
# Property C96: refused Basic credentials are answered with a challenge
-/

namespace Psion.Props

open Psion Spec

/-- The answer of the adapter does not fit the secret of the Basic header: there is no such client, or it has another secret or another
method. -/
def Unfit (found : Option Client) (secret : Option PyStr) : Prop :=
  ∀ c, found = some c → c.secret ≠ secret ∨ c.authMethod ≠ py! "client_secret_basic"

/-- The error that the Basic method raises. -/
def ChallengeErr (x : OErr) : Prop :=
  x.kind = .invalidClient ∧ x.error = some (py! "invalid_client") ∧ x.headers = [(py! "WWW-Authenticate", py! "Basic")]

/-- Rule for the authentication of a client that presents Basic credentials, if the first answer is that of `ev`. -/
theorem wpp_authenticate_unfit {req : Request} {methods : Option (List PyStr)} {id : PyStr} {s : Option PyStr}
    {found : Option Client} {Q : List Ev → Client → Prop} {E : List Ev → OExc → Prop} (hp : Presents req .basic id s)
    (hm : methodEnabled methods .basic = true) (hu : Unfit found s) (hE : ∀ h x, ChallengeErr x → E h (.oauth x)) :
    WpP (fun h ev => h = [] → ev = ⟨.findClient id, .ok found⟩) (fun _ _ => True) Q E [] (authenticate req methods) := by
  unfold authenticate AuthMethod.all authLoop
  rw [if_pos hm, wpp_bind]
  change WpP _ _ _ _ _ (authBasic req)
  rw [presents_basic_run hp]
  unfold checkClient
  rw [wpp_bind, wpp_call]
  refine ⟨trivial, ?_, fun e he => ?_⟩
  · intro a ha
    cases ha rfl
    cases found with
    | none => exact hE _ _ ⟨rfl, rfl, rfl⟩
    | some c =>
      dsimp only
      rw [wpp_ite, wpp_ite]
      refine ⟨fun _ => hE _ _ ⟨rfl, rfl, rfl⟩, fun h1 => ⟨fun _ => hE _ _ ⟨rfl, rfl, rfl⟩, fun h2 => ?_⟩⟩
      rcases hu c rfl with h | h
      · exact absurd h h1
      · exact absurd h h2
  · have := he rfl
    cases this

theorem answers_first {ev : Ev} {rest : List Ev} : Answers (fun h e => h = [] → e = ev) [] (ev :: rest) := by
  intro pre e post heq h
  cases pre with
  | nil => cases heq; rfl
  | cons a l => simp at h

theorem get_challenge (more : Dict PyStr PyStr) (h : more = [] ∨ more = noStoreHeaders) {x : OErr} (hx : ChallengeErr x) :
    Dict.get (parseHeaders (some (py! "application/json")) (Dict.update x.headers more)) (py! "WWW-Authenticate") =
      some (some (py! "Basic")) := by
  rw [hx.2.2]
  rcases h with h | h <;> rw [h] <;> decide +kernel

theorem get_plain : Dict.get (parseHeaders (some (py! "application/json")) []) (py! "WWW-Authenticate") = none := by decide +kernel

/-- C96, revocation endpoint: if the adapter is asked for the client of the Basic header, and its answer does not fit the secret, the
response has the status 401 and a challenge, and names `invalid_client`. No other response has a challenge, unless the adapter
raised one. -/
theorem C96_revoke (env : OEnv) (hl : FloatLaws env.cr.fe) (p : Provider) (req : Request) (tr : List Ev) (r : Response)
    (h : Exec (p.revoke env req) tr (.ok (some r))) :
    (∀ id s found rest, Presents req .basic id s → tr = ⟨.findClient id, .ok found⟩ :: rest → Unfit found s →
      r.status = 401 ∧ Dict.get r.headers (py! "WWW-Authenticate") = some (some (py! "Basic")) ∧
        ∃ d, JsonBody env.cr.fe r d ∧ Dict.get d (py! "error") = some (.str (py! "invalid_client"))) ∧
    (∀ v, Dict.get r.headers (py! "WWW-Authenticate") = some v →
      (∃ o x, (⟨o, .error (.oauth x)⟩ : Ev) ∈ tr) ∨ (v = some (py! "Basic") ∧ BasicRejected req tr)) := by
  refine ⟨?_, ?_⟩
  · rintro id s found rest hp rfl hu
    have hw : WpP (fun h ev => h = [] → ev = ⟨.findClient id, .ok found⟩) (fun _ _ => True)
        (fun _ a => ∃ x : OErr, ChallengeErr x ∧ ∃ r, a = some r ∧ jsonResponse env.cr.fe 401 x.headers (.dict (ndictVal x.dump)) = .ok r)
        (fun _ _ => True) [] (p.revoke env req) := by
      unfold Provider.revoke revokeEndpoint
      rw [wpp_catch]
      unfold revokeBody
      rw [wpp_bind]
      refine wpp_authenticate_unfit hp rfl hu ?_
      intro h x hx
      dsimp only [caught]
      rw [wpp_bind, wpp_lift, post_liftRes, if_pos hx.1]
      exact ⟨fun r hr => ⟨x, hx, r, rfl, hr⟩, fun _ _ => trivial⟩
    obtain ⟨x, hx, r', heq, hj⟩ := wpp_exec_ok h hw answers_first
    cases heq
    have hs := jsonResponse_status hj
    refine ⟨hs.1, ?_, _, (C62_error_body _ hl _ _ _ _ hj).2, ?_⟩
    · rw [hs.2]
      exact get_challenge [] (Or.inl rfl) hx
    · rw [get_dumped, hx.2.1]
      rfl
  · intro v hv
    rcases wpp_exec_ok h (wpp_revoke_blame env p req) answers_true r rfl with h1 | ⟨x, hx, hj⟩
    · rw [h1.2] at hv
      exact absurd hv (by rw [get_plain]; nofun)
    · have hs := jsonResponse_status hj
      rcases hx with ⟨o, hx⟩ | ⟨-, -, hh | ⟨hh, hb⟩, -⟩ | ⟨-, -, hh, -⟩
      · exact Or.inl ⟨o, x, hx⟩
      · rw [hs.2, hh] at hv
        exact absurd hv (by rw [get_plain]; nofun)
      · rw [hs.2, hh, show Dict.get (parseHeaders (some (py! "application/json")) [(py! "WWW-Authenticate", py! "Basic")]) (py! "WWW-Authenticate") = some (some (py! "Basic")) by decide +kernel] at hv
        exact Or.inr ⟨(Option.some.inj hv).symm, hb⟩
      · rw [hs.2, hh] at hv
        exact absurd hv (by rw [get_plain]; nofun)

/-- C96, token endpoint, what holds: if the adapter is asked for the client of the Basic header, and its answer does not fit the
secret, the response has a challenge and names `invalid_client`; no other response has a challenge, unless the application raised one.
What is missing: the status is 400, not 401. -/
theorem C96_token_partial (env : OEnv) (hl : FloatLaws env.cr.fe) (table : Hooks) (hb : Benign table) (p : Provider)
    (req : Request) (tr : List Ev) (r : Response) (h : Exec (p.token env table req) tr (.ok r)) :
    (∀ id s found rest, Presents req .basic id s → tr = ⟨.findClient id, .ok found⟩ :: rest → Unfit found s →
      r.status = 400 ∧ Dict.get r.headers (py! "WWW-Authenticate") = some (some (py! "Basic")) ∧
        ∃ d, JsonBody env.cr.fe r d ∧ Dict.get d (py! "error") = some (.str (py! "invalid_client"))) ∧
    (∀ v, Dict.get r.headers (py! "WWW-Authenticate") = some v →
      (∃ x, AppRaises table tr x) ∨ (v = some (py! "Basic") ∧ BasicRejected req tr)) := by
  refine ⟨?_, ?_⟩
  · rintro id s found rest hp rfl hu
    have hw : WpP (fun h ev => h = [] → ev = ⟨.findClient id, .ok found⟩) (fun _ _ => True)
        (fun h r => h ≠ [] → ∃ x : OErr, ChallengeErr x ∧
          jsonResponse env.cr.fe 400 (Dict.update x.headers noStoreHeaders) (.dict (ndictVal x.dump)) = .ok r)
        (fun _ _ => True) [] (p.token env table req) := by
      unfold Provider.token tokenEndpoint
      rw [wpp_catch]
      have early : ∀ e, caught (fun _ _ => True) (fun h e => WpP (fun h ev => h = [] → ev = ⟨.findClient id, .ok found⟩)
          (fun _ _ => True) (fun h r => h ≠ [] → ∃ x : OErr, ChallengeErr x ∧
          jsonResponse env.cr.fe 400 (Dict.update x.headers noStoreHeaders) (.dict (ndictVal x.dump)) = .ok r) (fun _ _ => True) h
          (P.lift (liftRes (jsonResponse env.cr.fe 400 (Dict.update e.headers noStoreHeaders) (.dict (ndictVal e.dump))))))
          [] e := by
        intro e
        cases e with
        | oauth x =>
          dsimp only [caught]
          rw [wpp_lift, post_liftRes]
          exact ⟨fun _ _ h => absurd rfl h, fun _ _ => trivial⟩
        | py x => trivial
      unfold tokenBody
      dsimp only
      rw [wpp_ite]
      refine ⟨fun _ => wpp_raise.mpr (early _), fun _ => ?_⟩
      rw [wpp_bind, wpp_lift, post_iff]
      refine ⟨?_, fun e _ => early e⟩
      intro grant hgrant
      obtain ⟨g, hg, hgt, rfl⟩ := validateGrantType_ok hgrant
      rw [wpp_bind]
      refine wpp_authenticate_unfit hp (by cases g <;> rfl) hu ?_
      intro h x hx
      dsimp only [caught]
      rw [wpp_lift, post_liftRes]
      exact ⟨fun r hr _ => ⟨x, hx, hr⟩, fun _ _ => trivial⟩
    obtain ⟨x, hx, hj⟩ := wpp_exec_ok h hw answers_first (by simp)
    have hs := jsonResponse_status hj
    refine ⟨hs.1, ?_, _, (C62_error_body _ hl _ _ _ _ hj).2, ?_⟩
    · rw [hs.2]
      exact get_challenge noStoreHeaders (Or.inr rfl) hx
    · rw [get_dumped, hx.2.1]
      rfl
  · intro v hv
    rcases token_response hb h with ⟨token, -, hj⟩ | ⟨x, -, hj⟩
    · rw [(jsonResponse_status hj).2] at hv
      exact absurd hv (by rw [show Dict.get (parseHeaders (some (py! "application/json")) noStoreHeaders) (py! "WWW-Authenticate") = none by decide +kernel]; nofun)
    rcases wpp_exec_ok h (wpp_token_blame hb p req) answers_true with h1 | ⟨x, hx, hj⟩
    · rw [(jsonResponse_status hj).1] at h1
      cases h1
    have hs := jsonResponse_status hj
    rcases hx x rfl with hx | ⟨hh | ⟨hh, hb⟩, -⟩
    · exact Or.inl ⟨x, hx⟩
    · rw [hs.2, hh] at hv
      exact absurd hv (by rw [show Dict.get (parseHeaders (some (py! "application/json")) (Dict.update [] noStoreHeaders)) (py! "WWW-Authenticate") = none by decide +kernel]; nofun)
    · rw [hs.2, hh, show Dict.get (parseHeaders (some (py! "application/json")) (Dict.update [(py! "WWW-Authenticate", py! "Basic")] noStoreHeaders)) (py! "WWW-Authenticate") = some (some (py! "Basic")) by decide +kernel] at hv
      exact Or.inr ⟨(Option.some.inj hv).symm, hb⟩

/-- Requests with a wrong secret in the header. -/
def toyWrong (body : Bytes) : Request := { toyPost body with headers := [(py! "authorization", py! "Basic YzE6eHg=")] }

theorem toyWrong_presents (body : Bytes) : Presents (toyWrong body) .basic (py! "c1") (some (py! "xx")) :=
  .basic _ _ (credentials_iff.mp (show getBasicAuthorization [(py! "authorization", py! "Basic YzE6eHg=")] = _ by decide +kernel))
    (by decide) (by decide)

theorem toyClient_unfit : Unfit (some toyClient) (some (py! "xx")) := by
  rintro c ⟨⟩
  exact Or.inl (by decide)

/-- C96 is false for the token endpoint: the status is 400 although the credentials of the header were refused. -/
theorem C96_refuted_status : ¬ ∀ (env : OEnv) (_ : FloatLaws env.cr.fe) (p : Provider) (req : Request) (tr : List Ev) (r : Response),
    Exec (p.token env Hooks.empty req) tr (.ok r) → ∀ id s found rest, Presents req .basic id s →
      tr = ⟨.findClient id, .ok found⟩ :: rest → Unfit found s → r.status = 401 := by
  intro H
  have hx := toyRun_exec toyUsual (toyWrong (by! "grant_type=client_credentials"))
  have hk : (match toyRun toyUsual (toyWrong (by! "grant_type=client_credentials")) with
      | ([⟨.findClient id, .ok (some c)⟩], .ok r) => decide (id = py! "c1" ∧ c.secret = some (py! "s3") ∧ r.status = 400)
      | _ => false) = true := by decide +kernel
  split at hk
  · rename_i id c r heq
    rw [heq] at hx
    rw [decide_eq_true_eq] at hk
    obtain ⟨rfl, hc, hr⟩ := hk
    have := H toyEnv toyFloat_laws toyProvider _ _ r hx _ _ _ _ (toyWrong_presents _) rfl
      (by rintro c' ⟨⟩; exact Or.inl (by rw [hc]; decide))
    rw [hr] at this
    cases this
  · cases hk

/-- C96 is false for credentials with an empty secret: they are ignored, and the request is refused without challenge. -/
theorem C96_refuted_empty : ∃ (req : Request) (tr : List Ev) (r : Response), Credentials req.headers (py! "c1") [] ∧
    Exec (toyProvider.revoke toyEnv req) tr (.ok (some r)) ∧ r.status = 401 ∧
      Dict.get r.headers (py! "WWW-Authenticate") = none := by
  refine ⟨{ toyRevocation with headers := [(py! "authorization", py! "Basic YzE6")] }, ?_⟩
  have hx := toyRevoke_exec toyUsual { toyRevocation with headers := [(py! "authorization", py! "Basic YzE6")] }
  have hk : (match (toyRevoke toyUsual { toyRevocation with headers := [(py! "authorization", py! "Basic YzE6")] }).2 with
      | .ok (some r) => decide (r.status = 401 ∧ Dict.get r.headers (py! "WWW-Authenticate") = none)
      | _ => false) = true := by decide +kernel
  split at hk
  · rename_i r heq
    rw [heq] at hx
    rw [decide_eq_true_eq] at hk
    exact ⟨_, r, credentials_iff.mp (show getBasicAuthorization [(py! "authorization", py! "Basic YzE6")] = _ by decide +kernel),
      hx, hk⟩
  · cases hk

/-- The challenge of the revocation endpoint, and an answer without challenge. -/
example : (match (toyRevoke toyUsual (toyWrong (by! "token=r1"))).2 with
      | .ok (some r) => decide (r.status = 401 ∧ Dict.get r.headers (py! "WWW-Authenticate") = some (some (py! "Basic")))
      | _ => false) = true ∧
    (match (toyRevoke toyUsual toyRevocation).2 with
      | .ok (some r) => decide (r.status = 200 ∧ Dict.get r.headers (py! "WWW-Authenticate") = none)
      | _ => false) = true := by decide +kernel

/-- The challenge of the token endpoint, and an answer without challenge. -/
example : (match (toyRun toyUsual (toyWrong (by! "grant_type=client_credentials"))).2 with
      | .ok r => decide (r.status = 400 ∧ Dict.get r.headers (py! "WWW-Authenticate") = some (some (py! "Basic")))
      | _ => false) = true ∧
    (match (toyRun toyUsual toyExchange).2 with
      | .ok r => decide (r.status = 200 ∧ Dict.get r.headers (py! "WWW-Authenticate") = none)
      | _ => false) = true := by decide +kernel

end Psion.Props
