import Verif.Spec.AnswerHeaders
import Verif.Props.Challenge

/-!
# Property C136: answers carry exactly the headers of the standards
-/

namespace Psion.Props

open Psion Psion.Spec

theorem carries_of {r : Response} {l m : List (PyStr × PyStr)} (hr : r.headers = m.map (fun kv => (kv.1, some kv.2)))
    (hm : (m.map Prod.fst).Nodup) (hl : ∀ x, x ∈ m ↔ x ∈ l) : Carries r l := by
  refine ⟨?_, ?_⟩
  · rw [hr, List.map_map]
    exact hm
  · intro k v
    rw [hr, List.mem_map]
    constructor
    · rintro ⟨⟨a, b⟩, hab, heq⟩
      cases heq
      exact ⟨b, rfl, (hl _).mp hab⟩
    · rintro ⟨s, rfl, hs⟩
      exact ⟨(k, s), (hl _).mpr hs, rfl⟩

/-- The headers of a redirect without further headers. -/
theorem redirect_headers {url : PyStr} {r : Response} (h : redirectResponse url [] = .ok r) :
    r.status = 303 ∧ ∃ loc, Carries r [(py! "Location", loc)] := by
  unfold redirectResponse at h
  split at h
  · cases h
  · rename_i loc _
    cases h
    exact ⟨rfl, loc, carries_of (m := [(py! "Location", loc)]) rfl (by simp) (by simp)⟩

theorem errorRedirect_headers {url : PyStr} {e : OErr} {r : Response} (he : e.headers = []) (h : errorRedirect url e = .ok r) :
    r.status = 303 ∧ ∃ loc, Carries r [(py! "Location", loc)] := by
  unfold errorRedirect at h
  split at h
  · cases h
  · rename_i u hu
    rw [he] at h
    refine redirect_headers (url := u) ?_
    revert h
    cases redirectResponse u [] <;> simp [liftRes]

theorem authorizationError_headers {cfg : Config} {data : Dict PyStr PyStr} {e : OErr} {r : Response} (he : e.headers = [])
    (h : authorizationError cfg data e = .ok r) : r.status = 303 ∧ ∃ loc, Carries r [(py! "Location", loc)] := by
  unfold authorizationError at h
  split at h
  · exact errorRedirect_headers he h
  · split at h
    · cases h
    · exact errorRedirect_headers he h

/-- C136, token endpoint: an answer has exactly the headers of RFC 6749, and a challenge only together with rejected Basic
credentials, unless the error is one of the application. -/
theorem C136_token (env : OEnv) (table : Hooks) (hb : Benign table) (p : Provider)
    (req : Request) (tr : List Ev) (r : Response) (h : Exec (p.token env table req) tr (.ok r)) :
    (r.status = 200 ∧ Carries r tokenHeaders) ∨
    (r.status = 400 ∧ (Carries r tokenHeaders ∨ Carries r (challengeHeader :: tokenHeaders) ∧ BasicRejected req tr ∨
      ∃ x, AppRaises table tr x)) := by
  rcases token_response hb h with ⟨token, -, hj⟩ | ⟨x, -, hj⟩
  · have hs := jsonResponse_status hj
    exact Or.inl ⟨hs.1, carries_of (m := tokenHeaders) hs.2 (by decide) (fun _ => Iff.rfl)⟩
  right
  refine ⟨(jsonResponse_status hj).1, ?_⟩
  rcases wpp_exec_ok h (wpp_token_blame hb p req) answers_true with h1 | ⟨x, hx, hj⟩
  · rw [(jsonResponse_status hj).1] at h1
    cases h1
  have hs := jsonResponse_status hj
  rcases hx x rfl with hx | ⟨hh | ⟨hh, hb⟩, -⟩
  · exact Or.inr (Or.inr ⟨x, hx⟩)
  · rw [hh] at hs
    exact Or.inl (carries_of (m := tokenHeaders) hs.2 (by decide) (fun _ => Iff.rfl))
  · rw [hh] at hs
    refine Or.inr (Or.inl ⟨carries_of (m := [(py! "Content-Type", py! "application/json"), challengeHeader,
      (py! "Cache-Control", py! "no-store"), (py! "Pragma", py! "no-cache")]) hs.2 (by decide) ?_, hb⟩)
    intro x
    simp only [tokenHeaders, List.mem_cons, List.not_mem_nil, or_false]
    constructor
    · rintro (h | h | h | h)
      · exact Or.inr (Or.inl h)
      · exact Or.inl h
      · exact Or.inr (Or.inr (Or.inl h))
      · exact Or.inr (Or.inr (Or.inr h))
    · rintro (h | h | h | h)
      · exact Or.inr (Or.inl h)
      · exact Or.inl h
      · exact Or.inr (Or.inr (Or.inl h))
      · exact Or.inr (Or.inr (Or.inr h))

/-- C136, revocation endpoint: an answer has exactly a content type, and a challenge only together with rejected Basic credentials and the
status 401, unless the error is one of the adapter. -/
theorem C136_revoke (env : OEnv) (p : Provider) (req : Request) (tr : List Ev) (r : Response)
    (h : Exec (p.revoke env req) tr (.ok (some r))) :
    ((r.status = 200 ∨ r.status = 400 ∨ r.status = 401) ∧ Carries r [(py! "Content-Type", py! "application/json")]) ∨
    (r.status = 401 ∧ Carries r [challengeHeader, (py! "Content-Type", py! "application/json")] ∧ BasicRejected req tr) ∨
    ∃ o x, (⟨o, .error (.oauth x)⟩ : Ev) ∈ tr := by
  have plain : ∀ {r : Response}, r.headers = parseHeaders (some (py! "application/json")) [] →
      Carries r [(py! "Content-Type", py! "application/json")] := fun h =>
    carries_of (m := [(py! "Content-Type", py! "application/json")]) h (by decide) (fun _ => Iff.rfl)
  rcases wpp_exec_ok h (wpp_revoke_blame env p req) answers_true r rfl with h1 | ⟨x, hx, hj⟩
  · exact Or.inl ⟨Or.inl h1.1, plain h1.2⟩
  have hs := jsonResponse_status hj
  rcases hx with ⟨o, hx⟩ | ⟨hk, -, hh | ⟨hh, hb⟩, -⟩ | ⟨hk, -, hh, -⟩
  · exact Or.inr (Or.inr ⟨o, x, hx⟩)
  · rw [hk, hh, if_pos rfl] at hs
    exact Or.inl ⟨Or.inr (Or.inr hs.1), plain hs.2⟩
  · rw [hk, hh, if_pos rfl] at hs
    refine Or.inr (Or.inl ⟨hs.1, carries_of (m := [(py! "Content-Type", py! "application/json"), challengeHeader]) hs.2 (by decide) ?_, hb⟩)
    intro x
    simp only [List.mem_cons, List.not_mem_nil, or_false]
    exact or_comm
  · rw [hk, hh, if_neg (by decide)] at hs
    exact Or.inl ⟨Or.inr (Or.inl hs.1), plain hs.2⟩

theorem authApp_raises {table : Hooks} {data : Dict PyStr PyStr} {id : PyStr} {c : Client} {u : User} {h : List Ev} {x : OErr}
    (hc : FoundClient h id c) (ha : AuthApp table data c u h (.oauth x)) : AppRaises table h x := by
  rcases ha with ⟨o, ho⟩ | ⟨acc, f, hf, acc', tr, -, ht, hx⟩ | ⟨code, valid, acc, f, hf, acc', tr, -, ht, hx⟩ | ⟨v, hv, he⟩
  · exact Or.inl ⟨o, ho⟩
  · obtain ⟨g, hg, rfl⟩ := List.mem_map.mp hf
    exact Or.inr (Or.inl ⟨g, hg, _, tr, ht.subset, hx⟩)
  · obtain ⟨g, hg, rfl⟩ := List.mem_map.mp hf
    exact Or.inr (Or.inr (Or.inl ⟨g, hg, _, _, _, _, tr, ht.subset, hx⟩))
  · exact Or.inr (Or.inr (Or.inr (Or.inr (Or.inr ⟨id, c, v, hc, hv, he⟩))))

theorem carries_location {r : Response} {loc : PyStr} (h : Carries r [(py! "Location", loc)]) : location r = some loc := by
  have hm : (py! "Location", some loc) ∈ r.headers := (h.2 _ _).mpr ⟨loc, rfl, List.mem_cons_self ..⟩
  unfold location
  rw [Dict.get_of_mem h.1 hm]
  rfl

/-- C136, authorization endpoint: an answer is a redirect whose one header is the place to go to, unless the error is one of the
application. -/
theorem C136_authorize (env : OEnv) (table : Hooks) (hb : Benign table) (p : Provider) (req : Request) (tr : List Ev) (r : Response)
    (h : Exec (p.authorize env table req) tr (.ok r)) :
    r.status = 303 ∧ ∃ loc, location r = some loc ∧ (Carries r [(py! "Location", loc)] ∨ ∃ x, AppRaises table tr x) := by
  obtain ⟨url, params, ⟨hst, base, q, h1, h2, -⟩, -⟩ := C46_partial env table hb p req tr r h
  have lib : (∃ loc, Carries r [(py! "Location", loc)]) →
      r.status = 303 ∧ ∃ loc, location r = some loc ∧ (Carries r [(py! "Location", loc)] ∨ ∃ x, AppRaises table tr x) :=
    fun ⟨loc, hc⟩ => ⟨hst, loc, carries_location hc, Or.inl hc⟩
  have app : (∃ x, AppRaises table tr x) →
      r.status = 303 ∧ ∃ loc, location r = some loc ∧ (Carries r [(py! "Location", loc)] ∨ ∃ x, AppRaises table tr x) :=
    fun ha => ⟨hst, _, h2, Or.inr ha⟩
  rcases authorize_response hb h with ⟨uri, code, response, url, -, -, hr⟩ | ⟨x, hf, hr⟩
  · exact lib (redirect_headers hr).2
  · cases hf with
    | fatal d hd => exact lib (authorizationError_headers rfl hr).2
    | denied uri hu hd => exact lib (authorizationError_headers rfl hr).2
    | unsupported uri rt x hu hrt hg hk hx => exact lib (authorizationError_headers hx.headers hr).2
    | lookup uri id e hu hm => exact app ⟨x, Or.inl ⟨_, hm⟩⟩
    | lib uri x hu hx => exact lib (authorizationError_headers hx.headers hr).2
    | app uri id c u e hu hc ha => exact app ⟨x, authApp_raises hc ha⟩
    | encode uri code response e hd he =>
      rcases he with he | ⟨_, _, _, _, he⟩
      · unfold urlencodeVals at he
        split at he
        · cases he
        · unfold liftRes at he
          split at he <;> cases he
      · cases he

/-- C136, consent: an answer that is a redirect has the one header, too. -/
theorem C136_consent (p : Provider) (req : Request) (tr : List Ev) (r : Response) (h : Exec (p.consent req) tr (.ok (.redirect r))) :
    (r.status = 303 ∧ ∃ loc, Carries r [(py! "Location", loc)]) ∨ ∃ x, AppRaises Hooks.empty tr x := by
  rcases wpp_exec_ok h (wpp_consent p.cfg req) answers_true with ⟨c', s', heq, hd⟩ | ⟨x, r', heq, hf, hr⟩
  · cases heq
  · cases heq
    cases hf with
    | fatal d hd => exact Or.inl (authorizationError_headers rfl hr)
    | lookup uri id e hu hm => exact Or.inr ⟨x, Or.inl ⟨_, hm⟩⟩
    | responseType uri hu => exact Or.inl (authorizationError_headers rfl hr)
    | scope uri hu => exact Or.inl (authorizationError_headers rfl hr)
    | client uri id c v e hu hc hv he => exact Or.inr ⟨x, Or.inr (Or.inr (Or.inr (Or.inr (Or.inr ⟨id, c, v, hc, hv, he⟩))))⟩

/-- Answers of each kind exist: tokens, a challenge, a redirect. -/
example : (match (toyRun toyUsual toyExchange).2 with
    | .ok r => decide (r.status = 200 ∧ r.headers = tokenHeaders.map (fun kv => (kv.1, some kv.2)))
    | .error _ => false) = true := by decide +kernel
example : (match (toyRun toyUsual (toyWrong (by! "grant_type=client_credentials"))).2 with
    | .ok r => decide (r.status = 400 ∧ (challengeHeader.1, some challengeHeader.2) ∈ r.headers)
    | .error _ => false) = true := by decide +kernel
example : (match (toyAuth toyUsual (toyGet toyAuthQuery (some toyUser))).2 with
    | .ok r => decide (r.headers.map Prod.fst = [py! "Location"])
    | .error _ => false) = true := by decide +kernel

end Psion.Props
