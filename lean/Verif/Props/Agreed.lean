import Verif.Props.Demands
import Verif.Spec.Agree

/-!
# C148: what is done in the name of a user was submitted by the user

A link on a foreign page makes the browser of a user send a `GET` request with the session of the user; a form of the application with its
token against cross-site requests shows that the user has meant it.
-/

namespace Psion.Props

open Psion Spec Example

variable {env : OEnv} {table : Hooks} {emailOk : PyStr → Bool} {reqs : Nat → WebRequest}

/-- The operations of a login only take place with a submitted form. -/
def FormOp (emailOk : PyStr → Bool) (req : WebRequest) (_ : List WEv) (o : WOp) : Prop :=
  OfLogin o → req.route = .login ∧ Submitted req ∧ GoodForm emailOk req.form

/-- Programs without conditions on their outcome. -/
abbrev FormOps (emailOk : PyStr → Bool) (req : WebRequest) (h : List WEv) (p : WP Served) : Prop :=
  WWp (FormOp emailOk req) (fun _ _ => True) h p

theorem formOps_loginPost {req : WebRequest} (h : List WEv) (user : Option User) (hr : req.route = .login)
    (hm : req.method = py! "POST") : FormOps emailOk req h (loginPost emailOk req user) := by
  unfold loginPost
  cases user with
  | some u => trivial
  | none =>
    dsimp only
    split
    · trivial
    · rename_i hv
      have hg : GoodForm emailOk req.form := form_valid_iff.mp (by simpa using hv)
      have key : ∀ h o, FormOp emailOk req h o := fun _ _ _ => ⟨hr, ⟨hm, hg.csrf⟩, hg⟩
      refine wwp_call (key _ _) (fun found => ?_) (fun _ => trivial)
      cases found with
      | none => trivial
      | some x =>
        obtain ⟨uid, pw⟩ := x
        dsimp only
        split
        · trivial
        · refine wwp_call (key _ _) (fun session => ?_) (fun _ => trivial)
          cases session with
          | some sid => trivial
          | none =>
            refine wwp_call (key _ _) (fun choices => ?_) (fun _ => trivial)
            refine wwp_lift (fun sid hsid => ?_) (fun _ _ => trivial)
            exact wwp_call (key _ _) (fun _ => trivial) (fun _ => trivial)

theorem formOps_view {req : WebRequest} (h : List WEv) (user : Option User) :
    FormOps emailOk req h (view env table emailOk req user) := by
  unfold view
  cases hr : req.route with
  | home => trivial
  | error => trivial
  | login =>
    dsimp only
    split
    · unfold loginGet
      cases user <;> trivial
    · split
      · rename_i hp
        exact formOps_loginPost h user hr (of_decide_eq_true hp)
      · trivial
  | logout =>
    dsimp only
    split
    · unfold logoutGet
      cases user with
      | none => trivial
      | some u =>
        dsimp only
        split
        · trivial
        · refine wwp_call nofun (fun b => ?_) (fun _ => trivial)
          unfold WP.bind
          rw [wwp_bind]
          cases b with
          | true =>
            simp only [if_true, both]
            rw [wwp_bind]
            refine ⟨nofun, fun r => ?_⟩
            show WWp _ _ _ (WProg.bind (WP.call (.deleteSessions _)) _)
            rw [wwp_bind]
            refine ⟨nofun, fun s => ?_⟩
            cases r with
            | error e => trivial
            | ok x => cases s <;> trivial
          | false =>
            simp only [both, Bool.false_eq_true, if_false]
            rw [wwp_bind]
            refine ⟨nofun, fun r => ?_⟩
            show WWp _ _ _ (WProg.bind (WP.call (.deleteRefresh _)) _)
            rw [wwp_bind]
            refine ⟨nofun, fun s => ?_⟩
            cases r with
            | error e => trivial
            | ok x => cases s <;> trivial
    · split <;> trivial
  | authorize =>
    dsimp only
    split
    · unfold authorizeGet
      cases user with
      | none =>
        dsimp only
        split <;> trivial
      | some u =>
        refine wwp_lift (fun r _ => ?_) (fun _ _ => trivial)
        exact wwp_libcall (fun _ _ => nofun) (fun _ _ => trivial) (fun _ _ => trivial)
    · trivial
  | revoke =>
    dsimp only
    split
    · refine wwp_lift (fun r _ => ?_) (fun _ _ => trivial)
      exact wwp_libcall (fun _ _ => nofun) (fun _ _ => trivial) (fun _ _ => trivial)
    · trivial
  | token =>
    dsimp only
    split
    · refine wwp_lift (fun r _ => ?_) (fun _ _ => trivial)
      exact wwp_libcall (fun _ _ => nofun) (fun _ _ => trivial) (fun _ _ => trivial)
    · trivial

theorem formOps_app (req : WebRequest) : FormOps emailOk req [] (app env table emailOk req) := by
  unfold app
  split
  · exact formOps_view [] none
  · refine wwp_call nofun (fun data => ?_) (fun _ => trivial)
    cases data with
    | none => exact formOps_view _ none
    | some x =>
      cases x with
      | none => trivial
      | some u => exact formOps_view _ (some u)

/-- C148 for the login (partial): in every history, the database is only asked for an account, for the session of an account or for a new
session by a request that submits the login form, with the token of the page and filled in as the page demands. So a foreign page can neither
log in the browser of a user nor try passwords with it. Missing: authorizations and logouts, see `C148_refuted`. -/
theorem C148_login_partial (h : List WStep) (hist : WHistory env table emailOk reqs h) (i : Nat) (ev : WEv) (hm : (i, ev) ∈ h)
    (ho : OfLogin ev.op) : (reqs i).route = .login ∧ Submitted (reqs i) ∧ GoodForm emailOk (reqs i).form := by
  obtain ⟨pre, post, heq⟩ := List.append_of_mem (mem_ofWeb.mpr hm)
  have hp := hist i
  rw [heq] at hp
  exact wwp_partial hp [] (formOps_app (reqs i)) pre ev post rfl ho

/-- A login looks up the account, and creates a session. -/
example : (webSim webReqs webStory).1.any (fun x => x.1 == 0 && savesSession x.2) = true ∧ Submitted (webReqs 0) :=
  ⟨by decide +kernel, rfl, rfl⟩

/-- The same form without the token of the page does nothing. -/
example : (webSim (fun _ => { webLogin [] (py! "correct horse") with form := ⟨py! "ann@example.org", py! "correct horse", false⟩ })
      (exTurn 0 4 2)).1.length = 0 ∧
    webServed ((webSim (fun _ => { webLogin [] (py! "correct horse") with form := ⟨py! "ann@example.org", py! "correct horse", false⟩ })
      (exTurn 0 4 2)).2.2 0) = some ⟨.page .login, none⟩ := by decide +kernel

/-- C148 is violated for everything but the login: no other endpoint looks at a submitted form, so that nothing that a user could agree with
makes a difference. -/
theorem C148_unasked_refuted (env : OEnv) (table : Hooks) (emailOk : PyStr → Bool) (req : WebRequest) (form : LoginForm)
    (hr : req.route ≠ .login) : app env table emailOk { req with form } = app env table emailOk req := by
  have hv : ∀ user, view env table emailOk { req with form } user = view env table emailOk req user := by
    intro user
    obtain ⟨route, method, site, url, query, headers, body, form', cookie⟩ := req
    cases route <;> first | rfl | exact absurd rfl hr
  unfold app
  simp only [hv]

/-- Does the event save a code of the user for the client? -/
def savesCodeFor (clientId uid : PyStr) : WEv → Bool
  | ⟨.lib (.saveCode _ _ c u), .ok ()⟩ => decide (c.clientId = clientId ∧ u.userId = uid)
  | _ => false

theorem any_savesCodeFor {clientId uid : PyStr} {i : Nat} {h : List WStep} (hp : (ofWeb i h).any (savesCodeFor clientId uid) = true) :
    ∃ code data c, (i, (⟨.lib (.saveCode code data c ⟨uid⟩), .ok ()⟩ : WEv)) ∈ h ∧ c.clientId = clientId := by
  obtain ⟨o, ans, hm, ht⟩ := any_event hp
  cases o with
  | lib o =>
    cases o with
    | saveCode code data c u =>
      cases ans with
      | error e => cases ht
      | ok a =>
        cases a
        obtain ⟨u⟩ := u
        obtain ⟨h1, rfl⟩ := of_decide_eq_true ht
        exact ⟨code, data, c, hm, h1⟩
    | _ => cases ht
  | _ => cases ht

/-- Login, authorization and logout. -/
def linkStory : List (Nat × Draw) := exTurn 0 4 2 ++ exTurn 1 4 0 ++ exTurn 2 4 0

/-- C148 is violated for authorizations and logouts: the user has submitted the login form only, at an address that mentions no client; then a
code is saved for the user and the client `c1`, and the user is logged out, by two `GET` requests without a form. -/
theorem C148_refuted : ∃ reqs h w', WHistory toyEnv (exHooks toyEnv) (fun _ => true) reqs h ∧ WRun toyEnv ⟨exStore, []⟩ h w' ∧
    (∀ x ∈ h, Submitted (reqs x.1) → (reqs x.1).route = .login ∧ (reqs x.1).query = []) ∧
    (reqs 1).method = py! "GET" ∧ ¬ Submitted (reqs 1) ∧
    (∃ code data c, (1, (⟨.lib (.saveCode code data c ⟨py! "u1"⟩), .ok ()⟩ : WEv)) ∈ h ∧ c.clientId = py! "c1") ∧
    (reqs 2).method = py! "GET" ∧ ¬ Submitted (reqs 2) ∧ (2, (⟨.deleteSessions (py! "u1"), .ok ()⟩ : WEv)) ∈ h := by
  refine ⟨webReqs, (webSim webReqs linkStory).1, _, webSim_history _ _, webSim_run _ _, ?_, rfl, fun h => (nomatch h.csrf),
    any_savesCodeFor (by decide +kernel), rfl, fun h => (nomatch h.csrf), any_endsSessions (by decide +kernel)⟩
  have : ((webSim webReqs linkStory).1.all fun x => decide (x.1 < 3)) = true := by decide +kernel
  intro x hx hs
  have hlt := of_decide_eq_true (List.all_eq_true.mp this x hx)
  generalize x.1 = n at hlt hs
  match n, hlt, hs with
  | 0, _, _ => exact ⟨rfl, rfl⟩
  | 1, _, hs => exact nomatch hs.csrf
  | 2, _, hs => exact nomatch hs.csrf

end Psion.Props
