import Verif.Spec.Routes
import Verif.Example.WebAnswer

/-!
# The views of the example application: lemmas about routes and methods
-/

namespace Psion.Example

open Psion Spec

variable {env : OEnv} {table : Hooks} {emailOk : PyStr → Bool}

/-- The middleware, and then the view. -/
theorem app_view {req : WebRequest} {tr : List WEv} {sv : Served} (h : WExec (app env table emailOk req) tr (.ok sv)) :
    (Orphaned req tr ∧ sv = ⟨.page .badRequest, none⟩) ∨
      ∃ user tr', WExec (view env table emailOk req user) tr' (.ok sv) ∧
        (tr = tr' ∨ ∃ c a, req.cookie = some c ∧ tr = ⟨.session c.sessionId c.userId, .ok a⟩ :: tr') ∧
        (∀ u, user = some u → ∃ c, req.cookie = some c ∧ tr = ⟨.session c.sessionId c.userId, .ok (some (some u))⟩ :: tr') ∧
        (user = none → (req.cookie = none ∧ tr = tr') ∨ ∃ sid uid, tr = ⟨.session sid uid, .ok none⟩ :: tr') := by
  unfold app at h
  split at h
  · rename_i hc
    exact Or.inr ⟨none, tr, h, Or.inl rfl, nofun, fun _ => Or.inl ⟨hc, rfl⟩⟩
  · rename_i c hc
    cases h with
    | op _ _ r t _ h =>
      cases r with
      | error e =>
        obtain ⟨-, h⟩ := wexec_done h
        cases h
      | ok x =>
        rcases x with _ | _ | u
        · exact Or.inr ⟨none, t, h, Or.inr ⟨c, _, hc, rfl⟩, nofun, fun _ => Or.inr ⟨_, _, rfl⟩⟩
        · obtain ⟨rfl, h2⟩ := wexec_done h
          exact Or.inl ⟨⟨c, hc, rfl⟩, Except.ok.inj h2⟩
        · refine Or.inr ⟨some u, t, h, Or.inr ⟨c, _, hc, rfl⟩, ?_, nofun⟩
          intro u' hu
          cases hu
          exact ⟨c, hc, rfl⟩

theorem served_page {p : Page} {tr : List WEv} {sv : Served} (h : WExec (served (.ok (.page p))) tr (.ok sv)) :
    tr = [] ∧ sv = ⟨.page p, none⟩ := by
  obtain ⟨h1, h2⟩ := wexec_done h
  exact ⟨h1, Except.ok.inj h2⟩

theorem served_quiet {r : Res Reply} {tr : List WEv} {sv : Served} (h : WExec (served r) tr (.ok sv)) : tr = [] ∧ sv.cookie = none := by
  obtain ⟨h1, h2⟩ := wexec_done h
  refine ⟨h1, ?_⟩
  cases r with
  | error e => cases h2
  | ok x => rw [Except.ok.inj h2]

theorem served_redirect {req : WebRequest} {path : PyStr} {tr : List WEv} {sv : Served}
    (h : WExec (served (redirectTo (req.site ++ path))) tr (.ok sv)) : tr = [] ∧ SentTo req path sv.reply := by
  obtain ⟨h1, h2⟩ := wexec_done h
  refine ⟨h1, ?_⟩
  unfold redirectTo at h2
  cases hq : quotePlus locSafe (req.site ++ path) with
  | error e => rw [hq] at h2; cases h2
  | ok loc =>
    rw [hq] at h2
    exact ⟨loc, hq, congrArg Served.reply (Except.ok.inj h2)⟩

/-- How a logout ends: the user agent is sent to the login page; for a user, both deletions were carried out, otherwise nothing was
done. -/
theorem logout_reply {req : WebRequest} {user : Option User} {tr : List WEv} {sv : Served}
    (h : WExec (logoutGet req user) tr (.ok sv)) :
    SentTo req (py! "/auth/login") sv.reply ∧ (user = none → tr = []) ∧
      (user ≠ none → ∃ c, req.cookie = some c ∧ (⟨.deleteSessions c.userId, .ok ()⟩ : WEv) ∈ tr ∧
        (⟨.deleteRefresh c.userId, .ok ()⟩ : WEv) ∈ tr) := by
  cases user with
  | none =>
    have := served_redirect (path := py! "/auth/login") h
    exact ⟨this.2, fun _ => this.1, fun h => absurd rfl h⟩
  | some u =>
    unfold logoutGet at h
    dsimp only at h
    split at h
    · obtain ⟨-, h⟩ := wexec_done h
      cases h
    · rename_i c hc
      cases h with
      | op _ _ b t _ h =>
        cases b with
        | error e => obtain ⟨-, h⟩ := wexec_done h; cases h
        | ok b =>
          have key : ∀ (r s : ORes Unit) (rest : List WEv), WExec (WP.bind (.done (match r with | .error e => .error e | .ok _ => s) : WP Unit)
              (fun _ => served (redirectTo (loginUrl req)))) rest (.ok sv) →
              r = .ok () ∧ s = .ok () ∧ SentTo req (py! "/auth/login") sv.reply := by
            intro r s rest h
            cases r with
            | error e => obtain ⟨-, h⟩ := wexec_done h; cases h
            | ok x =>
              cases s with
              | error e => obtain ⟨-, h⟩ := wexec_done h; cases h
              | ok y => exact ⟨rfl, rfl, (served_redirect (path := py! "/auth/login") h).2⟩
          cases b with
          | true =>
            cases h with
            | op _ _ r t _ h =>
              cases h with
              | op _ _ s t _ h =>
                obtain ⟨rfl, rfl, h2⟩ := key r s t h
                exact ⟨h2, nofun, fun _ => ⟨c, hc, by simp, by simp⟩⟩
          | false =>
            cases h with
            | op _ _ r t _ h =>
              cases h with
              | op _ _ s t _ h =>
                obtain ⟨rfl, rfl, h2⟩ := key r s t h
                exact ⟨h2, nofun, fun _ => ⟨c, hc, by simp, by simp⟩⟩

theorem isGet_iff {req : WebRequest} : isGet req = true ↔ Reads req := by
  unfold isGet Reads
  exact decide_eq_true_iff

theorem isPost_iff {req : WebRequest} : isPost req = true ↔ Posts req := by
  unfold isPost Posts
  exact decide_eq_true_iff

theorem not_both {req : WebRequest} (h : Reads req) : ¬ Posts req := by
  unfold Posts
  rcases h with h | h <;> rw [h] <;> decide

/-- The user of a request is the one for whom the view was called. -/
theorem app_user {req : WebRequest} {tr : List WEv} {sv : Served} (h : WExec (app env table emailOk req) tr (.ok sv)) :
    (Orphaned req tr ∧ sv = ⟨.page .badRequest, none⟩) ∨
      ∃ user tr', UserOf req tr user ∧ WExec (view env table emailOk req user) tr' (.ok sv) ∧
        (tr = tr' ∨ ∃ sid uid a, tr = ⟨.session sid uid, .ok a⟩ :: tr') := by
  rcases app_view h with h1 | ⟨user, tr', hv, ht, hs, hn⟩
  · exact Or.inl h1
  · refine Or.inr ⟨user, tr', ?_, hv, ?_⟩
    · cases user with
      | some u =>
        obtain ⟨c, hc, rfl⟩ := hs u rfl
        exact ⟨c, hc, List.mem_cons_self⟩
      | none =>
        intro sid uid x hm
        obtain ⟨pre, post, heq⟩ := List.append_of_mem hm
        obtain ⟨h1, h2⟩ : pre = [] ∧ req.cookie = some ⟨uid, sid⟩ := 
          app_op (ev := ⟨.session sid uid, .ok (some x)⟩) (post := post) (heq ▸ wexec_partial h)
        rcases hn rfl with ⟨h3, -⟩ | ⟨s, i, h3⟩
        · rw [h3] at h2; cases h2
        · rw [h3, h1] at heq
          cases heq
    · rcases ht with h1 | ⟨c, a, -, h1⟩
      · exact Or.inl h1
      · exact Or.inr ⟨_, _, a, h1⟩

theorem createResponse_reply {x : Option Response} {reply : Reply} (h : createResponse x = .ok reply) (p : Page) : reply ≠ .page p := by
  cases x with
  | none => cases h
  | some r =>
    unfold createResponse at h
    dsimp only at h
    split at h
    · cases h
    · cases h
      nofun

theorem endpoint_reply {α : Type} {q : Res Request} {p : Request → P α} {g : α → Option Response} {tr : List WEv} {sv : Served}
    (h : WExec (WP.bind (WP.lift q) fun r => WP.bind (WP.lib (p r)) fun x => served (createResponse (g x))) tr (.ok sv)) (pg : Page) :
    sv.reply ≠ .page pg := by
  cases q with
  | error e =>
    obtain ⟨-, h⟩ := wexec_done h
    cases h
  | ok r =>
    obtain ⟨-, ⟨e, -, h⟩ | ⟨x, -, h⟩⟩ := wexec_endpoint h
    · cases h
    · cases hc : createResponse (g x) with
      | error e => rw [hc] at h; cases h
      | ok reply =>
        rw [hc] at h
        cases h
        exact createResponse_reply hc pg

end Psion.Example
