import Verif.Example.RouteLemmas
import Verif.Props.WebAnswer
import Verif.Props.WebLogin

/-!
# Properties C111 and C112: what is behind the URLs of the example application
-/

namespace Psion.Props

open Psion Spec Example

variable {env : OEnv} {table : Hooks} {emailOk : PyStr → Bool}

/-! ## C111: methods and pages -/

/-- C111: a request with a method that its URL is not meant for is answered so, and nothing is done except that the middleware looks
for the session. -/
theorem C111_refused (req : WebRequest) (tr : List WEv) (sv : Served) (h : WExec (app env table emailOk req) tr (.ok sv))
    (hm : ¬ Meant req) :
    sv.cookie = none ∧ (sv.reply = .page .methodNotAllowed ∨ (sv.reply = .page .badRequest ∧ Orphaned req tr)) ∧
      ∀ ev ∈ tr, ∃ sid uid, ev.op = .session sid uid := by
  rcases app_view h with ⟨ho, rfl⟩ | ⟨user, tr', hv, ht, -, -⟩
  · have ho' := ho
    obtain ⟨c, -, htr⟩ := ho'
    refine ⟨rfl, Or.inr ⟨rfl, ho⟩, ?_⟩
    rw [htr]
    intro ev hev
    rw [List.mem_singleton.mp hev]
    exact ⟨_, _, rfl⟩
  · have key : tr' = [] ∧ sv = ⟨.page .methodNotAllowed, none⟩ := by
      unfold Meant at hm
      unfold view at hv
      split at hv <;> rename_i hr <;> rw [hr] at hm <;> dsimp only at hm
      · rw [if_neg (fun h => hm (isGet_iff.mp h))] at hv
        exact served_page hv
      · rw [if_neg (fun h => hm (Or.inl (isGet_iff.mp h))), if_neg (fun h => hm (Or.inr (isPost_iff.mp h)))] at hv
        exact served_page hv
      · rw [if_neg (fun h => hm (Or.inl (isGet_iff.mp h))), if_neg (fun h => hm (Or.inr (isPost_iff.mp h)))] at hv
        exact served_page hv
      · rw [if_neg (fun h => hm (isGet_iff.mp h))] at hv
        exact served_page hv
      · rw [if_neg (fun h => hm (isGet_iff.mp h))] at hv
        exact served_page hv
      · rw [if_neg (fun h => hm (isPost_iff.mp h))] at hv
        exact served_page hv
      · rw [if_neg (fun h => hm (isPost_iff.mp h))] at hv
        exact served_page hv
    obtain ⟨rfl, rfl⟩ := key
    refine ⟨rfl, Or.inl rfl, ?_⟩
    rcases ht with rfl | ⟨c, a, -, rfl⟩
    · nofun
    · intro ev hev
      rw [List.mem_singleton.mp hev]
      exact ⟨_, _, rfl⟩

/-- C111: a request with a method that its URL is meant for is answered with what is behind the URL. -/
theorem C111_answers (req : WebRequest) (tr : List WEv) (sv : Served) (h : WExec (app env table emailOk req) tr (.ok sv))
    (hm : Meant req) :
    (Orphaned req tr ∧ sv.reply = .page .badRequest) ∨ ∃ user, UserOf req tr user ∧ Expected req user sv.reply := by
  rcases app_user h with ⟨ho, rfl⟩ | ⟨user, tr', hu, hv, -⟩
  · exact Or.inl ⟨ho, rfl⟩
  · refine Or.inr ⟨user, hu, ?_⟩
    unfold Meant at hm
    unfold Expected
    unfold view at hv
    split at hv <;> rename_i hr <;> rw [hr] at hm ⊢ <;> dsimp only at hm ⊢
    · rw [if_pos (isGet_iff.mpr hm)] at hv
      rw [(served_page hv).2]
    · refine ⟨?_, ?_⟩
      · intro hne
        cases user with
        | none => exact absurd rfl hne
        | some u =>
          rcases hm with hm | hm
          · rw [if_pos (isGet_iff.mpr hm)] at hv
            exact (served_redirect hv).2
          · rw [if_neg (fun h => not_both (isGet_iff.mp h) hm), if_pos (isPost_iff.mpr hm)] at hv
            exact (served_redirect hv).2
      · intro hne hg
        rw [if_pos (isGet_iff.mpr hg), hne] at hv
        rw [(served_page hv).2]
    · refine ⟨?_, ?_⟩
      · intro hp
        rw [if_neg (fun h => not_both (isGet_iff.mp h) hp), if_pos (isPost_iff.mpr hp)] at hv
        exact (served_redirect hv).2
      · intro hg
        rw [if_pos (isGet_iff.mpr hg)] at hv
        exact (logout_reply hv).1
    · rw [if_pos (isGet_iff.mpr hm)] at hv
      unfold authorizeGet at hv
      cases user with
      | none =>
        dsimp only at hv
        split at hv
        · obtain ⟨-, h⟩ := wexec_done hv
          cases h
        · rename_i url _
          obtain ⟨loc, -, h⟩ := (served_redirect (req := { req with site := [] }) (path := url) hv).2
          rw [h]
          nofun
      | some u => exact endpoint_reply hv _
    · rw [if_pos (isGet_iff.mpr hm)] at hv
      rw [(served_page hv).2]
    · rw [if_pos (isPost_iff.mpr hm)] at hv
      exact endpoint_reply hv _
    · rw [if_pos (isPost_iff.mpr hm)] at hv
      exact endpoint_reply hv _

/-- A login, then with the cookie: the error page is read, posted to, and the logout is posted and read. -/
def toyVisits : Nat → WebRequest
  | 0 => webLogin [] (py! "correct horse")
  | 1 => { webLogout with route := .error }
  | 2 => { webLogout with route := .error, method := py! "POST" }
  | 3 => { webLogout with method := py! "POST" }
  | _ => webLogout

/-- What is replied to a request of this story. -/
def toyReply (i : Nat) : Option Reply :=
  webReply ((webSim toyVisits (exTurn 0 4 2 ++ exTurn 1 4 0 ++ exTurn 2 4 0 ++ exTurn 3 4 0 ++ exTurn 4 4 0)).2.2 i)

example : Meant (toyVisits 1) ∧ toyReply 1 = some (.page .error) ∧ ¬ Meant (toyVisits 2) ∧ toyReply 2 = some (.page .methodNotAllowed) ∧
    toyReply 3 = some (.response 303 [(py! "location", (toyVisits 3).site ++ py! "/auth/logout")] []) ∧
    toyReply 4 = some (.response 303 [(py! "location", (toyVisits 4).site ++ py! "/auth/login")] []) := by
  refine ⟨Or.inl rfl, by decide +kernel, ?_, by decide +kernel, by decide +kernel, by decide +kernel⟩
  rintro (h | h) <;> exact absurd h (by decide)

/-! ## C112: reading requests -/

/-- C112, as far as it holds: a request with the method `GET` or `HEAD` to any URL but the one for the logout changes nothing, except
what the library does for an authorization request. The middleware may have looked for the session. -/
theorem C112_partial (req : WebRequest) (tr : List WEv) (sv : Served) (h : WExec (app env table emailOk req) tr (.ok sv))
    (hg : Reads req) (hr : req.route ≠ .logout) :
    sv.cookie = none ∧ ∀ ev ∈ tr, (∃ sid uid, ev.op = .session sid uid) ∨ (req.route = .authorize ∧ ∃ o, ev.op = .lib o) := by
  by_cases hm : Meant req
  · rcases app_user h with ⟨⟨c, -, rfl⟩, rfl⟩ | ⟨user, tr', hu, hv, ht⟩
    · refine ⟨rfl, fun ev hev => ?_⟩
      rw [List.mem_singleton.mp hev]
      exact Or.inl ⟨_, _, rfl⟩
    · have key : sv.cookie = none ∧ ∀ ev ∈ tr', req.route = .authorize ∧ ∃ o, ev.op = .lib o := by
        have red : ∀ {r : Res Reply}, WExec (served r) tr' (.ok sv) →
            sv.cookie = none ∧ ∀ ev ∈ tr', req.route = .authorize ∧ ∃ o, ev.op = .lib o := by
          intro r h
          obtain ⟨h1, h2⟩ := served_quiet h
          refine ⟨h2, fun ev hev => ?_⟩
          rw [h1] at hev
          cases hev
        unfold Meant at hm
        unfold view at hv
        split at hv <;> rename_i hr' <;> rw [hr'] at hm <;> dsimp only at hm
        · exact red hv
        · rw [if_pos (isGet_iff.mpr hg)] at hv
          unfold loginGet at hv
          cases user <;> dsimp only at hv <;> exact red hv
        · exact absurd hr' hr
        · rw [if_pos (isGet_iff.mpr hg)] at hv
          unfold authorizeGet at hv
          cases user with
          | none =>
            dsimp only at hv
            split at hv
            · obtain ⟨-, h⟩ := wexec_done hv
              cases h
            · exact red hv
          | some u =>
            cases hq : createRequest req (some u) with
            | error e =>
              dsimp only at hv
              rw [hq] at hv
              obtain ⟨-, h⟩ := wexec_done hv
              cases h
            | ok r =>
              dsimp only at hv
              rw [hq] at hv
              obtain ⟨h1, ⟨e, -, h⟩ | ⟨x, -, h⟩⟩ := wexec_endpoint (p := fun r => exProvider.authorize env table r) (g := some) hv
              · cases h
              · refine ⟨?_, fun ev hev => ⟨hr', h1 ev hev⟩⟩
                cases hc : createResponse (some x) with
                | error e => rw [hc] at h; cases h
                | ok reply =>
                  rw [hc] at h
                  cases h
                  rfl
        · exact red hv
        · exact absurd hm (not_both hg)
        · exact absurd hm (not_both hg)
      refine ⟨key.1, fun ev hev => ?_⟩
      rcases ht with rfl | ⟨sid, uid, a, rfl⟩
      · exact Or.inr (key.2 ev hev)
      · rcases List.mem_cons.mp hev with rfl | hev
        · exact Or.inl ⟨_, _, rfl⟩
        · exact Or.inr (key.2 ev hev)
  · obtain ⟨h1, -, h2⟩ := C111_refused req tr sv h hm
    exact ⟨h1, fun ev hev => Or.inl (h2 ev hev)⟩

/-- C112 is false for the logout: whoever follows a link to this page, on whatever site it may be, loses all sessions and refresh tokens. -/
theorem C112_refuted (req : WebRequest) (tr : List WEv) (sv : Served) (h : WExec (app env table emailOk req) tr (.ok sv))
    (hg : Reads req) (hr : req.route = .logout) (u : User) (hu : UserOf req tr (some u)) :
    ∃ c, req.cookie = some c ∧ (⟨.deleteSessions c.userId, .ok ()⟩ : WEv) ∈ tr ∧ (⟨.deleteRefresh c.userId, .ok ()⟩ : WEv) ∈ tr := by
  rcases app_user h with ⟨⟨c, hc, rfl⟩, rfl⟩ | ⟨user, tr', hu', hv, ht⟩
  · obtain ⟨c', hc', hm⟩ := hu
    rw [hc] at hc'
    cases hc'
    cases List.mem_singleton.mp hm
  · have hne : user ≠ none := by
      rintro rfl
      obtain ⟨c, -, hm⟩ := hu
      exact hu' _ _ _ hm
    unfold view at hv
    rw [hr] at hv
    dsimp only at hv
    rw [if_pos (isGet_iff.mpr hg)] at hv
    obtain ⟨c, h1, h2, h3⟩ := (logout_reply hv).2.2 hne
    refine ⟨c, h1, ?_, ?_⟩ <;> rcases ht with rfl | ⟨_, _, _, rfl⟩ <;> first | assumption | exact List.mem_cons_of_mem _ (by assumption)

/-- The logout of the story above. -/
example : toyReply 4 ≠ none ∧ (ofWeb 4 (webSim toyVisits (exTurn 0 4 2 ++ exTurn 1 4 0 ++ exTurn 2 4 0 ++ exTurn 3 4 0 ++ exTurn 4 4 0)).1).any
    (endsSessions (py! "u1")) = true := by
  decide +kernel

end Psion.Props
