import Verif.Props.Isolation

/-!
# Property C133: what was issued stays until its owner gives it up
-/

namespace Psion.Props

open Psion Spec Example

variable {env : OEnv} {table : Hooks} {emailOk : PyStr → Bool} {reqs : Nat → WebRequest}

/-- The moment at which something is lost in the course of a history. -/
theorem lost_at {h : List WStep} {w w' : WStore} (hrun : OnlyRequests env w h w') (keeps : WStore → Prop) (h0 : keeps w) :
    keeps w' ∨ ∃ pre i ev post m m', h = pre ++ (i, ev) :: post ∧ OnlyRequests env w pre m ∧ WEffect env m ev m' ∧ keeps m ∧
      ¬ keeps m' := by
  induction hrun with
  | nil w => exact Or.inl h0
  | step w w1 w2 i ev h he _ ih =>
    rcases Classical.em (keeps w1) with hk | hk
    · rcases ih hk with hk | ⟨pre, j, ev', post, m, m', rfl, h1, h2, h3, h4⟩
      · exact Or.inl hk
      · exact Or.inr ⟨(i, ev) :: pre, j, ev', post, m, m', rfl, .step _ _ _ _ _ _ he h1, h2, h3, h4⟩
    · exact Or.inr ⟨[], i, ev, h, w, w1, rfl, .nil _, he, h0, hk⟩

theorem onlyRequests_run {h : List WStep} {w w' : WStore} (hrun : OnlyRequests env w h w') : WRun env w h w' := by
  induction hrun with
  | nil w => exact .nil w
  | step w w1 w2 i ev h he _ ih => exact .step _ _ _ _ _ _ he ih

/-- C133 for refresh tokens: a refresh token stays as it is, until its own client revokes it or its own user logs out. -/
theorem C133_refresh (hb : Benign table) (w w' : WStore) (h : List WStep) (hist : WHistory env table emailOk reqs h)
    (hrun : OnlyRequests env w h w') (r : RefreshTok) (hr : r ∈ w.db.refresh) :
    r ∈ w'.db.refresh ∨ ∃ pre i ev post, h = pre ++ (i, ev) :: post ∧
      (((reqs i).route = .revoke ∧ ∃ q, ClientSent reqs pre i q r.clientId ∧ Dict.get q.form (py! "token") = some r.token) ∨
        (reqs i).route = .logout ∧ UserSent reqs pre i r.userId) := by
  rcases lost_at hrun (fun w => r ∈ w.db.refresh) hr with hk | ⟨pre, i, ev, post, m, m', rfl, h1, h2, h3, h4⟩
  · exact Or.inl hk
  · exact Or.inr ⟨pre, i, ev, post, rfl,
      ((C130_partial hb w m m' pre post i ev hist (onlyRequests_run h1) h2).refreshGone r h3).resolve_left h4⟩

/-- C133 for sessions: a session stays, until its own user logs out. -/
theorem C133_session (hb : Benign table) (w w' : WStore) (h : List WStep) (hist : WHistory env table emailOk reqs h)
    (hrun : OnlyRequests env w h w') (s : PyStr × PyStr) (hs : s ∈ w.sessions) :
    s ∈ w'.sessions ∨ ∃ pre i ev post, h = pre ++ (i, ev) :: post ∧ (reqs i).route = .logout ∧ UserSent reqs pre i s.2 := by
  rcases lost_at hrun (fun w => s ∈ w.sessions) hs with hk | ⟨pre, i, ev, post, m, m', rfl, h1, h2, h3, h4⟩
  · exact Or.inl hk
  · exact Or.inr ⟨pre, i, ev, post, rfl,
      ((C130_partial hb w m m' pre post i ev hist (onlyRequests_run h1) h2).sessionGone s h3).resolve_left h4⟩

/-- C133 for codes, as far as it holds: a code stays as it is, until a client presents it. Missing is that it is the client that the
code was made for (`C133_refuted`). -/
theorem C133_code_partial (hb : Benign table) (w w' : WStore) (h : List WStep) (hist : WHistory env table emailOk reqs h)
    (hrun : OnlyRequests env w h w') (kv : PyStr × AuthCode) (hk : kv ∈ w.db.codes) :
    kv ∈ w'.db.codes ∨ ∃ pre i ev post, h = pre ++ (i, ev) :: post ∧ (reqs i).route = .token ∧
      ∃ q id, ClientSent reqs pre i q id ∧ Dict.get q.data (py! "code") = some kv.1 := by
  rcases lost_at hrun (fun w => kv ∈ w.db.codes) hk with hk | ⟨pre, i, ev, post, m, m', rfl, h1, h2, h3, h4⟩
  · exact Or.inl hk
  · obtain ⟨g1, q, id, g2, g3, -⟩ :=
      ((C130_partial hb w m m' pre post i ev hist (onlyRequests_run h1) h2).codeGone kv h3).resolve_left h4
    exact Or.inr ⟨pre, i, ev, post, rfl, g1, q, id, g2, g3⟩

/-- C133 is false for codes: another client that presents the code removes it. -/
theorem C133_refuted : ¬ ∀ (env : OEnv) (table : Hooks) (emailOk : PyStr → Bool) (reqs : Nat → WebRequest) (_ : Benign table)
    (w w' : WStore) (h : List WStep) (_ : WHistory env table emailOk reqs h) (_ : OnlyRequests env w h w') (kv : PyStr × AuthCode)
    (_ : kv ∈ w.db.codes),
    kv ∈ w'.db.codes ∨ ∃ pre i ev post, h = pre ++ (i, ev) :: post ∧ (reqs i).route = .token ∧
      ∃ q, ClientSent reqs pre i q kv.2.clientId ∧ Dict.get q.data (py! "code") = some kv.1 := by
  intro H
  rcases H toyEnv (exHooks toyEnv) (fun _ => true) (fun _ => isoReq) (exHooks_benign _) isoStore
    { isoStore with db := Example.deleteCode isoStore.db (.str (py! "abc")) } _ iso_history
    (.step _ isoStore _ _ _ _ ⟨exDraw 0, Or.inl rfl⟩ (.step _ _ _ _ _ _ ⟨exDraw 0, Or.inl rfl⟩ (.nil _))) isoCode
    (List.mem_singleton.mpr rfl) with h | ⟨pre, i, ev, post, he, -, q, ⟨-, c, -, -, hm, -⟩, -⟩
  · have : (Example.deleteCode isoStore.db (.str (py! "abc"))).codes = [] := by decide +kernel
    dsimp only at h
    rw [this] at h
    cases h
  · have hm : _ ∈ pre ++ (i, ev) :: post := List.mem_append_left _ hm
    rw [← he] at hm
    rcases List.mem_cons.mp hm with h1 | h1
    · have h1 := congrArg (fun s : WStep => s.2.op) h1
      simp only [WOp.lib.injEq, Op.findClient.injEq] at h1
      exact absurd h1 (by decide)
    · have h1 := congrArg (fun s : WStep => s.2.op) (List.mem_singleton.mp h1)
      simp only [WOp.lib.injEq, reduceCtorEq] at h1

/-! ## A concrete history -/

theorem wsim_onlyRequests {α : Type} (env : OEnv) (l : List (Nat × Draw)) : ∀ (s : WStore) (ps : Nat → WProg α),
    OnlyRequests env s (wsim env l s ps).1 (wsim env l s ps).2.1 := by
  induction l with
  | nil => intro s ps; exact .nil s
  | cons x l ih =>
    obtain ⟨i, d⟩ := x
    intro s ps
    unfold wsim
    split
    · exact ih s ps
    · rename_i o k _
      exact .step _ _ _ _ _ _ ⟨d, Or.inl rfl⟩ (ih _ _)

/-- A user with a session, and with a refresh token that the first client has. -/
def keepStore : WStore :=
  ⟨{ isoStore.db with refresh := [⟨py! "rt", py! "c1", py! "u1", [py! "openid"], 9000000⟩] }, [(py! "s1", py! "u1")]⟩

/-- The other client tries to revoke the token; then its own client does; and the user logs out. -/
def keepReqs : Nat → WebRequest
  | 0 => { isoReq with route := .revoke, body := by! "token=rt" }
  | 1 => { isoReq with route := .revoke, headers := [(py! "authorization", py! "Basic YzE6czM=")], body := by! "token=rt" }
  | _ => { webLogout with cookie := some ⟨py! "u1", py! "s1"⟩ }

/-- The simulation. -/
def keepSim (l : List (Nat × Draw)) : List WStep × WStore × (Nat → WProg (ORes Served)) :=
  wsim toyEnv l keepStore (fun i => app toyEnv (exHooks toyEnv) (fun _ => true) (keepReqs i))

/-- The hypotheses hold for these histories, in which the requests are served. The token survives the request of the other client, and
it does not survive the other ones. -/
example : (∀ l, WHistory toyEnv (exHooks toyEnv) (fun _ => true) keepReqs (keepSim l).1 ∧
      OnlyRequests toyEnv keepStore (keepSim l).1 (keepSim l).2.1) ∧
    (keepSim (exTurn 0 4 0)).1.length = 2 ∧ (keepSim (exTurn 0 4 0)).2.1.db.refresh.length = 1 ∧
    webStatus ((keepSim (exTurn 0 4 0)).2.2 0) = some 200 ∧
    (keepSim (exTurn 1 4 0)).2.1.db.refresh.length = 0 ∧
    (keepSim (exTurn 2 6 0)).2.1.db.refresh.length = 0 ∧ (keepSim (exTurn 2 6 0)).2.1.sessions.length = 0 ∧
    (keepSim (exTurn 0 4 0)).2.1.sessions.length = 1 :=
  ⟨fun l => ⟨fun i => (wsim_exec toyEnv l keepStore (fun i => app toyEnv (exHooks toyEnv) (fun _ => true) (keepReqs i)) i).2,
    wsim_onlyRequests _ _ _ _⟩, by decide +kernel⟩

end Psion.Props
