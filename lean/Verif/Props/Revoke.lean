import Verif.OAuth.RevokeLemmas
import Verif.Props.TokenAnswers

/-!
# Property C53: the revocation endpoint
-/

namespace Psion.Props

open Psion Spec

/-- A run of the revocation endpoint of the toy provider. -/
def toyRevoke (orc : List Ev → (o : Op) → ORes o.Ans) (req : Request) : List Ev × ORes (Option Response) :=
  Prog.run orc [] (toyProvider.revoke toyEnv req)

theorem toyRevoke_exec (orc : List Ev → (o : Op) → ORes o.Ans) (req : Request) :
    Exec (toyProvider.revoke toyEnv req) (toyRevoke orc req).1 (toyRevoke orc req).2 := exec_run _ _

/-- Is the outcome a response with this status and body? -/
def isAnswer (status : Nat) (body : Bytes) : ORes (Option Response) → Bool
  | .ok (some r) => decide (r.status = status ∧ r.body = body)
  | _ => false

/-- Does the event ask the adapter to revoke this token? -/
def revokes (token : PyStr) (hint : Option PyStr) : Ev → Bool
  | ⟨.revoke _ t h, _⟩ => decide (t = token ∧ h = hint)
  | _ => false

/-- A valid revocation request. -/
def toyRevocation : Request := toyPost (by! "token=r1&token_type_hint=refresh_token")

example : isAnswer 200 (by! "null") (toyRevoke toyUsual toyRevocation).2 = true := by decide +kernel

/-- The same request with a wrong secret (`c1:s4`). -/
def toyForeign : Request :=
  { toyRevocation with headers := [(py! "authorization", py! "Basic YzE6czQ=")] }

example : isAnswer 401 (by! "{\"error\": \"invalid_client\", \"error_description\": \"Mismatching Client Secret.\"}")
    (toyRevoke toyUsual toyForeign).2 = true := by decide +kernel

example : isAnswer 400 (by! "{\"error\": \"unsupported_token_type\"}")
    (toyRevoke toyUsual (toyPost (by! "token=r1&token_type_hint=id_token"))).2 = true := by decide +kernel

/-- C53, operations: the endpoint only looks up clients and revokes. It revokes exactly the token of the request with exactly the
hint of the request, on behalf of a client that was authenticated before, and only if the hint is missing, empty or supported. It
has not revoked anything before, so it revokes at most once. -/
theorem C53_operations (env : OEnv) (p : Provider) (req : Request) (pre post : List Ev) (ev : Ev)
    (h : Partial (p.revoke env req) (pre ++ ev :: post)) :
    (∃ id, ev.op = .findClient id) ∨
      ∃ c t hint, ev.op = .revoke c t hint ∧ Authenticated req none pre c ∧
        Dict.get req.form (py! "token") = some t ∧ t ≠ [] ∧ hint = Dict.get req.form (py! "token_type_hint") ∧
        (hint = none ∨ hint = some [] ∨ hint = some (py! "access_token") ∨ hint = some (py! "refresh_token")) ∧
        ∀ e ∈ pre, ∀ c' t' hint', e.op ≠ .revoke c' t' hint' := by
  have hs := wpp_partial h (wpp_revoke env p req) answers_true rfl
  obtain ⟨o, ans⟩ := ev
  cases o with
  | findClient id => exact Or.inl ⟨id, rfl⟩
  | revoke c t hint =>
    obtain ⟨h1, h2, h3, h4, h5, h6⟩ := hs
    refine Or.inr ⟨c, t, hint, rfl, h1, h2, h3, h4, h5, ?_⟩
    intro e he c' t' hint' heq
    have := h6 e he
    rw [heq] at this
    cases this
  | _ => exact hs.elim

example : (toyRevoke toyUsual toyRevocation).1.any (revokes (py! "r1") (some (py! "refresh_token"))) = true := by
  decide +kernel

/-- C53, once: in no execution, finished or not, is the adapter asked to revoke twice. -/
theorem C53_once (env : OEnv) (p : Provider) (req : Request) (tr : List Ev) (h : Partial (p.revoke env req) tr) :
    (tr.filter (fun ev => isRevoke ev.op)).length ≤ 1 := by
  refine filter_once ?_
  rintro pre ev post rfl hev e he
  obtain ⟨id, ho⟩ | ⟨c, t, hint, ho, -, -, -, -, -, hpre⟩ := C53_operations env p req pre post ev h
  · rw [ho] at hev; cases hev
  · cases hr : isRevoke e.op with
    | false => rfl
    | true =>
      generalize hx : e.op = o at hr
      cases o with
      | revoke c' t' hint' => exact absurd hx (hpre e he c' t' hint')
      | _ => cases hr

example : ((toyRevoke toyUsual toyRevocation).1.filter (fun ev => isRevoke ev.op)).length = 1 := by decide +kernel

/-- C53, answers: every response has the status 200, 400 or 401, whatever the application does. It is 200 only if the adapter has
revoked the token, 401 only for an `InvalidClient` error (of the library or of the adapter), and if the library reports an error,
nothing was revoked. -/
theorem C53_answers (env : OEnv) (p : Provider) (req : Request) (tr : List Ev) (r : Response)
    (h : Exec (p.revoke env req) tr (.ok (some r))) :
    (r.status = 200 ∧ r.body = by! "null" ∧ ∃ c t, Authenticated req none tr c ∧
      Dict.get req.form (py! "token") = some t ∧
      (⟨.revoke c t (Dict.get req.form (py! "token_type_hint")), .ok ()⟩ : Ev) ∈ tr) ∨
    (∃ x : OErr, ((r.status = 401 ∧ x.kind = .invalidClient) ∨ (r.status = 400 ∧ x.kind ≠ .invalidClient)) ∧
      ((∃ o, (⟨o, .error (.oauth x)⟩ : Ev) ∈ tr) ∨
        ((x.kind = .invalidClient ∨ x.kind = .unsupportedTokenType) ∧ ∀ ev ∈ tr, ∀ c t hint, ev.op ≠ .revoke c t hint))) := by
  have hno : (∀ ev ∈ tr, isRevoke ev.op = false) → ∀ ev ∈ tr, ∀ c t hint, ev.op ≠ .revoke c t hint := by
    intro H ev hev c t hint heq
    have := H ev hev
    rw [heq] at this
    cases this
  rcases wpp_exec_ok h (wpp_revoke env p req) answers_true with (⟨c, _, _, heq, _⟩ | ⟨c, t, r', h1, h2, h3, heq, hj⟩) | ⟨x, r', hf, heq, hj⟩
  · cases heq
  · cases heq
    obtain ⟨r2, hr2, hb⟩ := jsonResponse_null env.cr.fe 200 []
    rw [hj] at hr2
    cases hr2
    exact Or.inl ⟨(jsonResponse_status hj).1, hb, c, t, h1, h2, h3⟩
  · cases heq
    have hst := (jsonResponse_status hj).1
    refine Or.inr ⟨x, ?_, ?_⟩
    · by_cases hk : x.kind = .invalidClient
      · exact Or.inl ⟨by rw [hst, if_pos hk], hk⟩
      · exact Or.inr ⟨by rw [hst, if_neg hk], hk⟩
    · generalize he : OExc.oauth x = e at hf
      cases hf with
      | client x hk _ hn => cases he; exact Or.inr ⟨Or.inl hk, hno hn⟩
      | hint c _ _ hn => cases he; exact Or.inr ⟨Or.inr rfl, hno hn⟩
      | app o e hm => subst he; exact Or.inl ⟨o, hm⟩
      | header x _ => cases he

/-- C53 is false: for a request without a token the endpoint returns `None` instead of a response. -/
theorem C53_refuted : ¬ ∀ (env : OEnv) (_ : FloatLaws env.cr.fe) (p : Provider) (req : Request) (tr : List Ev)
    (out : ORes (Option Response)), (∀ ev ∈ tr, ∃ a, ev.ans = .ok a) → Exec (p.revoke env req) tr out →
      ∃ r, out = .ok (some r) := by
  intro H
  let req := toyPost (by! "token=&token_type_hint=refresh_token")
  have hr : (match (toyRevoke toyUsual req).2 with | .ok none => true | _ => false) = true := by decide +kernel
  have ha : (toyRevoke toyUsual req).1.all (fun ev => match ev.ans with | .ok _ => true | .error _ => false) = true := by
    decide +kernel
  obtain ⟨r, hr'⟩ := H toyEnv toyFloat_laws toyProvider req _ _ (by
    intro ev hev
    have := List.all_eq_true.mp ha ev hev
    cases h : ev.ans with
    | ok a => exact ⟨a, rfl⟩
    | error e => rw [h] at this; cases this) (toyRevoke_exec toyUsual req)
  rw [hr'] at hr
  cases hr

/-- C53, second counterexample: a Basic header without credentials ends with a `ValueError`. -/
theorem C53_refuted_header :
    (match (toyRevoke toyUsual { toyRevocation with headers := [(py! "authorization", py! "Basic ")] }).2 with
      | .error (.py .valueErr) => true | _ => false) = true := by
  decide +kernel

/-- C53 for requests that have a token and whose Authorization header is not malformed: the endpoint answers, unless the adapter
raises something that cannot be reported. The two conditions on the request are necessary (`C53_refuted`,
`C53_refuted_header`). -/
theorem C53_partial (env : OEnv) (hl : FloatLaws env.cr.fe) (p : Provider) (req : Request) (tr : List Ev)
    (out : ORes (Option Response)) (hco : ∀ o e, (⟨o, .error e⟩ : Ev) ∈ tr → Calm e)
    (hquery : ∀ k v, Dict.get req.query k = some v → Encodable v)
    (hbasic : ¬ MalformedBasic req.headers)
    (htoken : ∃ t, Dict.get req.form (py! "token") = some t ∧ t ≠ [])
    (h : Exec (p.revoke env req) tr out) :
    ∃ r, out = .ok (some r) ∧ (r.status = 200 ∨ r.status = 400 ∨ r.status = 401) := by
  have hcalm : ∀ e, RevokeFail req tr e → Calm e := by
    intro e he
    cases he with
    | client x _ hx _ => exact calm_libErr (fun k v hk => encodable_data hquery hk) hx
    | hint c _ _ _ => exact calm_libErr (fun k v hk => encodable_data hquery hk) (libErr_plain _ _)
    | app o e hm => exact hco o e hm
    | header x hx => exact absurd (malformedBasic_iff.mp ⟨x, hx⟩) hbasic
  cases out with
  | ok a =>
    cases a with
    | none =>
      rcases wpp_exec_ok h (wpp_revoke env p req) answers_true with (⟨c, _, hb, _⟩ | ⟨c, t, r', _, _, _, heq, _⟩) | ⟨x, r', _, heq, _⟩
      · rw [blank_eq_false.mpr htoken] at hb; cases hb
      · cases heq
      · cases heq
    | some r =>
      refine ⟨r, rfl, ?_⟩
      rcases C53_answers env p req tr r h with ⟨h1, -⟩ | ⟨x, ⟨h1, -⟩ | ⟨h1, -⟩, -⟩
      · exact Or.inl h1
      · exact Or.inr (Or.inr h1)
      · exact Or.inr (Or.inl h1)
  | error e =>
    exfalso
    rcases wpp_exec_error h (wpp_revoke env p req) answers_true with ⟨hf, x, rfl⟩ | ⟨x, y, hf, -, hj⟩
    · obtain ⟨_, hx, -⟩ := (hcalm _ hf).is
      cases hx
    · obtain ⟨_, ⟨⟩, -, henc⟩ := (hcalm _ hf).is
      obtain ⟨r, hr⟩ := jsonResponse_ok hl (encD_dump henc) (if x.kind = .invalidClient then 401 else 400) x.headers
      rw [hj] at hr
      cases hr

example : ∃ r, (toyRevoke toyUsual toyRevocation).2 = .ok (some r) ∧ (r.status = 200 ∨ r.status = 400 ∨ r.status = 401) :=
  C53_partial toyEnv toyFloat_laws toyProvider toyRevocation _ _
    (by
      have h : (toyRevoke toyUsual toyRevocation).1.all (fun ev => match ev.ans with | .ok _ => true | .error _ => false) = true := by
        decide +kernel
      intro o e he
      have := List.all_eq_true.mp h _ he
      cases this)
    (by intro k v h; cases h)
    (by
      have h : (match getBasicAuthorization toyRevocation.headers with | .ok _ => true | .error _ => false) = true := by
        decide +kernel
      intro hm
      obtain ⟨x, hx⟩ := malformedBasic_iff.mpr hm
      rw [hx] at h; cases h)
    ⟨py! "r1", by decide +kernel, by decide⟩
    (toyRevoke_exec toyUsual toyRevocation)

end Psion.Props
