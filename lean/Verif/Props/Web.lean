import Verif.Props.ToyWeb
import Verif.Props.System

/-!
# Properties C69, C70, C71: sessions of the example application
-/

namespace Psion.Props

open Psion Spec Example

variable {env : OEnv} {table : Hooks} {emailOk : PyStr → Bool} {reqs : Nat → WebRequest}

/-! ## C69 -/

/-- What a session that is saved goes back to. -/
theorem saved_login {pre post : List WStep} {j : Nat} {sid uid : PyStr} {ans : ORes Unit}
    (hist : WHistory env table emailOk reqs (pre ++ (j, ⟨.saveSession sid uid, ans⟩) :: post)) : PasswordLogin reqs pre j uid := by
  have h := hist j
  rw [ofWeb_split] at h
  obtain ⟨h1, h2, h3, -⟩ := app_op h
  exact ⟨h1, h2, mem_ofWeb.mp h3⟩

/-- C69: whenever a request is recognised as one of the user with the id `uid`, its cookie names this user and a session that was
created by a login with the password of this user, after the last logout of the user that was carried out. This holds in every
interleaving of any requests, wherever they fail, if there were no sessions of the user at the beginning. -/
theorem C69_sessions (w w' : WStore) (pre post : List WStep) (i : Nat) (sid uid : PyStr) (u : User)
    (hist : WHistory env table emailOk reqs (pre ++ (i, ⟨.session sid uid, .ok (some (some u))⟩) :: post))
    (hrun : WRun env w (pre ++ (i, ⟨.session sid uid, .ok (some (some u))⟩) :: post) w')
    (h0 : ∀ s ∈ w.sessions, s.2 ≠ uid) :
    (reqs i).cookie = some ⟨uid, sid⟩ ∧ u.userId = uid ∧ LiveSession reqs pre sid uid := by
  have h := hist i
  rw [ofWeb_split] at h
  obtain ⟨-, hcookie⟩ := app_op h
  obtain ⟨m, m', hr, he, -⟩ := wrun_at hrun
  obtain ⟨d, he⟩ := he
  have he := Except.ok.inj (congrArg Prod.snd (he.resolve_right (by rintro ⟨⟨n, hn⟩, -⟩; cases hn)))
  split at he
  · rename_i hm
    obtain ⟨row, hrow, rfl⟩ := Option.map_eq_some_iff.mp (Option.some.inj he)
    have hid := List.find?_some hrow
    refine ⟨hcookie, of_decide_eq_true hid, ?_⟩
    rcases wrun_sessions hr hm with ⟨hm, -⟩ | ⟨a, j, ans, b, rfl, hb⟩
    · exact absurd rfl (h0 _ hm)
    · rw [List.append_assoc, List.cons_append] at hist
      exact ⟨a, j, ans, b, rfl, saved_login hist, hb⟩
  · cases he

/-- There is such a history: after the login, the authorization request is recognised. -/
example : ∃ w' pre post sid, WHistory toyEnv (exHooks toyEnv) (fun _ => true) webReqs
      (pre ++ (1, ⟨.session sid (py! "u1"), .ok (some (some ⟨py! "u1"⟩))⟩) :: post) ∧
    WRun toyEnv ⟨exStore, []⟩ (pre ++ (1, ⟨.session sid (py! "u1"), .ok (some (some ⟨py! "u1"⟩))⟩) :: post) w' := by
  obtain ⟨sid, hm⟩ := any_recognises (uid := py! "u1") (i := 1) (h := (webSim webReqs webStory).1) (by decide +kernel)
  obtain ⟨pre, post, heq⟩ := List.append_of_mem hm
  exact ⟨_, pre, post, sid, heq ▸ webSim_history webReqs webStory, heq ▸ webSim_run webReqs webStory⟩

/-- The conclusion excludes something: without a login before, there is no live session. -/
example (reqs : Nat → WebRequest) (sid uid : PyStr) : ¬ LiveSession reqs [] sid uid := by
  rintro ⟨a, j, ans, b, h, -⟩
  simp at h

/-! ## C71 -/

/-- `created_authorized` in a database that may already hold codes and refresh tokens of other users. -/
theorem created_authorized_for (hb : Benign table) {calls : Nat → Call} {h : List Step}
    {s s' : Store} {uid : PyStr} (hist : History env table calls h) (hrun : ExRun env s h s')
    (h0 : ∀ kv ∈ s.codes, kv.2.userId ≠ uid) (h1 : ∀ r ∈ s.refresh, r.userId ≠ uid) : ∀ n pre i ev post c u scopes,
    pre.length = n → h = pre ++ (i, ev) :: post → u.userId = uid → CreatesToken ev.op c (some u) scopes →
    AuthorizedFor env table calls pre c (some u) scopes := by
  have husers : ∀ {i id u}, (i, (⟨.findUser id, .ok (some u)⟩ : Ev)) ∈ h → u.userId = id := by
    intro i id u hm
    obtain ⟨a, b, rfl⟩ := List.append_of_mem hm
    obtain ⟨m, m', -, hs, -⟩ := run_at hrun
    exact step_findUser hs
  intro n
  induction n using Nat.strongRecOn with
  | ind n ih =>
    intro pre i ev post c u scopes hn hh hu hc
    obtain ⟨p, req, hcall, g, -, -, -, hauth, hj⟩ := create_justified hb (hh ▸ hist) hc
    have hpre : ∀ x ∈ pre, x ∈ h := fun x hx => hh ▸ List.mem_append_left _ hx
    cases g with
    | authorizationCode =>
      obtain ⟨x, hx, code, ac, uri, v, now, -, h2, h3, -, -, -, -, -, -, -, h11, rfl⟩ := hj
      cases hx
      have hac : u.userId = ac.userId := husers (hpre _ (mem_ofRequest.mp h11))
      obtain ⟨a, b, rfl⟩ := List.append_of_mem (mem_ofRequest.mp h2)
      rw [hh, List.append_assoc, List.cons_append] at hrun hist
      obtain ⟨m, m', hr, hs, -⟩ := run_at hrun
      obtain ⟨k, hk, hget⟩ := step_getCode hs
      cases hk
      rcases run_codes hr (Dict.mem_of_get hget) with hm | ⟨j, data, c', u', ans, hm, hst⟩
      · exact absurd (hac ▸ hu) (h0 _ hm)
      · obtain ⟨a1, a2, rfl⟩ := List.append_of_mem hm
        have hist' := hist
        rw [List.append_assoc, List.cons_append] at hist'
        obtain ⟨p', req', g1, g2⟩ := save_authorization hb hist'
        refine ⟨j, p', req', code, data, c', u', ac.scopes, ⟨g1, ⟨ans, by simp⟩, authorizes_mono g2 (ofRequest_subset ?_)⟩,
          ?_, ?_, hst.scopes, fun s hs => hs⟩
        · intro x hx
          simp [hx]
        · rw [← hst.client, h3]
        · rintro _ ⟨⟩
          rw [← hst.user, ← hac]
    | clientCredentials => exact absurd hj.1 nofun
    | refreshToken =>
      obtain ⟨x, hx, token, rt, now, base, -, h2, h3, -, -, h6, h7, -, -, h8⟩ := hj
      cases hx
      have hrt : u.userId = rt.userId := husers (hpre _ (mem_ofRequest.mp h6))
      obtain ⟨a, b, hab⟩ := List.append_of_mem (mem_ofRequest.mp h2)
      have hrun' := hrun
      rw [hh, hab, List.append_assoc, List.cons_append] at hrun'
      obtain ⟨m, m', hr, hs, -⟩ := run_at hrun'
      rcases run_refresh hr (step_getRefresh hs).1 with hm | ⟨j, c0, u0, ans, hm, -, hc0, hu0⟩
      · exact absurd (hrt ▸ hu) (h1 _ hm)
      · obtain ⟨a1, a2, rfl⟩ := List.append_of_mem hm
        have hlen : a1.length < n := by rw [← hn, hab]; simp
        obtain ⟨j', p', req', code, data, c', u', ws, g1, g2, g3, g4, g5⟩ := ih _ hlen a1 j
          ⟨.createRefresh c0 (some u0) rt.scopes, ans⟩
          (a2 ++ (i, ⟨.getRefresh token, .ok (some rt)⟩) :: b ++ (i, ev) :: post) c0 u0 rt.scopes rfl
          (by rw [hh, hab]; simp) (by rw [← hu0, ← hrt, hu]) (Or.inr rfl)
        refine ⟨j', p', req', code, data, c', u', ws, authorization_mono g1 ?_, ?_, ?_, g4, ?_⟩
        · intro s hs; rw [hab]; simp [hs]
        · rw [g2, ← hc0, h3]
        · rintro y ⟨⟩
          rw [g3 u0 rfl, ← hu0, ← hrt]
        · obtain ⟨m, id, hf, -⟩ := hauth
          have hnar : Narrows c := by
            obtain ⟨a, b, hab'⟩ := List.append_of_mem (hpre _ (mem_ofRequest.mp hf))
            rw [hab'] at hrun
            obtain ⟨m, m', -, hs, -⟩ := run_at hrun
            obtain ⟨row, -, rfl, -⟩ := step_findClient hs
            exact narrows_row row
          intro s hs
          exact g5 s (h7 s (hnar base scopes h8 s hs))

/-- The requests of a history of the web layer as calls of the library. -/
theorem whistory_calls {h : List WStep} (hist : WHistory env table emailOk reqs h) :
    ∃ calls, History env table calls (libSteps h) ∧
      ∀ i, ofRequest i (libSteps h) ≠ [] → LibCall env table (reqs i) (ofWeb i h) (calls i) := by
  have key : ∀ i, ∃ call : Call, call.Did env table (ofRequest i (libSteps h)) ∧
      (ofRequest i (libSteps h) ≠ [] → LibCall env table (reqs i) (ofWeb i h) call) := by
    intro i
    rw [ofRequest_libSteps]
    rcases app_call (hist i) with h0 | ⟨call, hc⟩
    · rw [h0]
      exact ⟨.revoke exProvider ⟨[], [], [], none, none⟩, .here _, fun h => absurd rfl h⟩
    · refine ⟨call, ?_, fun _ => hc⟩
      cases call with
      | authorize p r => exact hc.2.2.1
      | consent p r => exact hc.elim
      | token p r => exact hc.2.2.1
      | revoke p r => exact hc.2.2.1
  exact ⟨fun i => (key i).choose, fun i => (key i).choose_spec.1, fun i => (key i).choose_spec.2⟩

/-- What was recognised first. -/
theorem first_event {h pre post : List WStep} {i : Nat} {e : WEv} {t : List WEv} {x : WEv}
    (h0 : h = pre ++ post) (h1 : ofWeb i h = e :: t) (h2 : (i, x) ∈ pre) :
    ∃ a b, pre = a ++ (i, e) :: b ∧ ofWeb i a = [] ∧ ((i, x) ∈ b ∨ x = e) := by
  induction pre generalizing h with
  | nil => cases h2
  | cons s pre ih =>
    obtain ⟨j, y⟩ := s
    subst h0
    by_cases hj : j = i
    · subst hj
      have h3 : ofWeb j ((j, y) :: pre ++ post) = y :: ofWeb j (pre ++ post) := by simp [ofWeb]
      rw [h3] at h1
      obtain ⟨rfl, -⟩ := List.cons.inj h1
      refine ⟨[], pre, rfl, rfl, ?_⟩
      rcases List.mem_cons.mp h2 with h2 | h2
      · exact Or.inr (Prod.mk.inj h2).2
      · exact Or.inl h2
    · have h3 : ofWeb i ((j, y) :: pre ++ post) = ofWeb i (pre ++ post) := by simp [ofWeb, hj]
      rw [h3] at h1
      rcases List.mem_cons.mp h2 with h2 | h2
      · exact absurd (Prod.mk.inj h2).1.symm hj
      · obtain ⟨a, b, rfl, h4, h5⟩ := ih rfl h1 h2
        exact ⟨(j, y) :: a, b, rfl, by simpa [ofWeb, hj] using h4, h5⟩

/-- C71: whatever requests arrive at the example application, in whatever order their operations take place, wherever they fail and
whatever administration does to the database: every access token and every refresh token created for a user goes back to a request
of the browser of this user to the authorization endpoint, recognised by a session that a login with the password of the user has
created and that no logout has ended, which authorized the same client for at least these scopes. At the beginning, there may be
sessions, codes and refresh tokens of other users. -/
theorem C71_end_to_end (hb : Benign table) (w w' : WStore) (pre post : List WStep) (i : Nat) (o : Op) (ans : ORes o.Ans)
    (c : Client) (u : User) (scopes : List PyStr)
    (hist : WHistory env table emailOk reqs (pre ++ (i, ⟨.lib o, ans⟩) :: post))
    (hrun : WRun env w (pre ++ (i, ⟨.lib o, ans⟩) :: post) w')
    (hs : ∀ s ∈ w.sessions, s.2 ≠ u.userId) (h0 : ∀ kv ∈ w.db.codes, kv.2.userId ≠ u.userId)
    (h1 : ∀ r ∈ w.db.refresh, r.userId ≠ u.userId)
    (hc : o = .createAccess c (.user (some u)) scopes ∨ o = .createRefresh c (some u) scopes) :
    ∃ j sid c' ws a b, BrowserAuthorization reqs pre j sid c' u ws a b ∧ c'.clientId = c.clientId ∧ ∀ s ∈ scopes, s ∈ ws := by
  obtain ⟨calls, hist', hcalls⟩ := whistory_calls hist
  have hsplit : libSteps (pre ++ (i, ⟨.lib o, ans⟩) :: post) = libSteps pre ++ (i, ⟨o, ans⟩) :: libSteps post := by
    rw [libSteps_append]; rfl
  have hrun' := wrun_lib hrun
  obtain ⟨j, p, r, code, data, c', u', ws, ha, g1, g2, g3, g4⟩ := created_authorized_for hb hist' hrun' h0 h1 _ _ i ⟨o, ans⟩
    _ c u scopes rfl hsplit rfl hc
  have hu : u' = u := by
    have := g2 u rfl
    cases u; cases u'; cases this; rfl
  subst hu
  obtain ⟨ans', hm⟩ := ha.saved
  have hne : ofRequest j (libSteps (pre ++ (i, ⟨.lib o, ans⟩) :: post)) ≠ [] := by
    intro hn
    have : (⟨.saveCode code data c' u', ans'⟩ : Ev) ∈ ofRequest j (libSteps (pre ++ (i, ⟨.lib o, ans⟩) :: post)) :=
      mem_ofRequest.mpr (by rw [libSteps_append]; exact List.mem_append_left _ hm)
    rw [hn] at this
    cases this
  have hcall := hcalls j hne
  rw [ha.call] at hcall
  obtain ⟨rfl, hroute, -, ck, x, t, hck, ht, hreq, -⟩ := hcall
  have hmw := mem_libSteps.mp hm
  obtain ⟨a, b, rfl, -, hx⟩ := first_event rfl ht hmw
  have hx := hx.resolve_right (wev_ne WOp.noConfusion)
  have hist2 := hist
  have hrun2 := hrun
  rw [List.append_assoc, List.cons_append] at hist2 hrun2
  have hid : x.userId = ck.userId ∧ u'.userId = ck.userId ∧ x = u' := by
    have hxu : r.user = some x := by
      cases request_init hreq
      rfl
    have := ha.authorizes.user
    rw [hxu] at this
    cases this
    obtain ⟨d, he⟩ : ∃ m m', WEffect env m (⟨.session ck.sessionId ck.userId, .ok (some (some u'))⟩ : WEv) m' := by
      obtain ⟨m, m', -, he, -⟩ := wrun_at hrun2
      exact ⟨m, m', he⟩
    obtain ⟨m', d', he⟩ := he
    have he := Except.ok.inj (congrArg Prod.snd (he.resolve_right (by rintro ⟨⟨n, hn⟩, -⟩; cases hn)))
    split at he
    · obtain ⟨row, hrow, hx⟩ := Option.map_eq_some_iff.mp (Option.some.inj he)
      have hid := List.find?_some hrow
      have hid : row.id = ck.userId := of_decide_eq_true hid
      subst hx
      exact ⟨hid, hid, rfl⟩
    · cases he
  obtain ⟨-, hid, rfl⟩ := hid
  obtain ⟨k1, k2, k3⟩ := C69_sessions w w' a _ j ck.sessionId ck.userId x hist2 hrun2 (fun s hm => hid ▸ hs s hm)
  rw [← hid] at k1 k3
  refine ⟨j, ck.sessionId, c', ws, a, b, ⟨by rw [hid], hroute, k1, k3, r, code, data, ans', hreq, hx, ha.authorizes, g3⟩, g1, g4⟩

/-- There is such a history: login, authorization, logout, and the exchange of the code. -/
example : ∃ w' pre post c scopes token, WHistory toyEnv (exHooks toyEnv) (fun _ => true) webReqs
      (pre ++ (3, ⟨.lib (.createAccess c (.user (some ⟨py! "u1"⟩)) scopes), .ok token⟩) :: post) ∧
    WRun toyEnv ⟨exStore, []⟩
      (pre ++ (3, ⟨.lib (.createAccess c (.user (some ⟨py! "u1"⟩)) scopes), .ok token⟩) :: post) w' ∧
    Benign (exHooks toyEnv) := by
  obtain ⟨c, scopes, token, hm⟩ :=
    any_accessFor (uid := py! "u1") (i := 3) (h := (webSim webReqs webStory).1) (by decide +kernel)
  obtain ⟨pre, post, heq⟩ := List.append_of_mem hm
  exact ⟨_, pre, post, c, scopes, token, heq ▸ webSim_history webReqs webStory, heq ▸ webSim_run webReqs webStory,
    exHooks_benign _⟩

/-! ## C70 -/

/-- Of two ways to cut a list, if the first element does not occur after the second one, it comes before. -/
theorem cut_order {α : Type} {a b a' b' : List α} {d s : α} (h : a ++ d :: b = a' ++ s :: b') (hne : s ≠ d) (hd : d ∉ b') : s ∈ b := by
  rcases List.append_eq_append_iff.mp h with ⟨x, rfl, hx⟩ | ⟨x, rfl, hx⟩
  · cases x with
    | nil => exact absurd (List.cons.inj hx).1.symm hne
    | cons y x =>
      obtain ⟨rfl, rfl⟩ := List.cons.inj hx
      simp
  · cases x with
    | nil => exact absurd (List.cons.inj hx).1 hne
    | cons y x =>
      obtain ⟨rfl, rfl⟩ := List.cons.inj hx
      simp at hd

/-- A session that is alive after a logout was created after the logout. -/
theorem live_after {h a b : List WStep} {k : Nat} {sid uid : PyStr} (hl : LiveSession reqs h sid uid)
    (hh : h = a ++ (k, ⟨.deleteSessions uid, .ok ()⟩) :: b) : ∃ l ans, (l, (⟨.saveSession sid uid, ans⟩ : WEv)) ∈ b := by
  obtain ⟨a', j, ans, b', h1, -, h2⟩ := hl
  rw [hh] at h1
  exact ⟨j, ans, cut_order h1 (fun e => wev_ne WOp.noConfusion (Prod.mk.inj e).2) (h2 k)⟩

/-- C70, sessions: after a logout has deleted the sessions of a user, a request is recognised as one of this user only by a session
that was created later. -/
theorem C70_sessions (w w' : WStore) (a b c : List WStep) (k i : Nat) (sid uid : PyStr) (u : User)
    (hist : WHistory env table emailOk reqs (a ++ (k, ⟨.deleteSessions uid, .ok ()⟩) :: b ++
      (i, ⟨.session sid uid, .ok (some (some u))⟩) :: c))
    (hrun : WRun env w (a ++ (k, ⟨.deleteSessions uid, .ok ()⟩) :: b ++
      (i, ⟨.session sid uid, .ok (some (some u))⟩) :: c) w')
    (h0 : ∀ s ∈ w.sessions, s.2 ≠ uid) : ∃ l ans, (l, (⟨.saveSession sid uid, ans⟩ : WEv)) ∈ b :=
  live_after (C69_sessions w w' _ c i sid uid u hist hrun h0).2.2 rfl

/-- C70, refresh tokens: after a logout has deleted the refresh tokens of a user, a refresh token of this user is found only if the
library has asked for one in between. -/
theorem C70_refresh (w w' : WStore) (a b c : List WStep) (k i : Nat) (t uid : PyStr) (rt : RefreshTok)
    (hrun : WRun env w (a ++ (k, ⟨.deleteRefresh uid, .ok ()⟩) :: b ++ (i, ⟨.lib (.getRefresh t), .ok (some rt)⟩) :: c) w')
    (hu : rt.userId = uid) : rt.token = t ∧ ∃ l cl u ans, (l, (⟨.lib (.createRefresh cl (some u) rt.scopes), ans⟩ : WEv)) ∈ b ∧
      rt.clientId = cl.clientId ∧ rt.userId = u.userId := by
  rw [List.append_assoc, List.cons_append] at hrun
  obtain ⟨m, m', -, he, hr⟩ := wrun_at hrun
  obtain ⟨n, n', hr', hg, -⟩ := wrun_at hr
  obtain ⟨d, he⟩ := he
  have he : { m with db := logout m.db uid } = m' :=
    congrArg Prod.fst (he.resolve_right (by rintro ⟨⟨n, hn⟩, -⟩; cases hn))
  rcases weffect_db hg with ⟨o, ans, ho, hg⟩ | ⟨hne, -⟩
  · cases ho
    obtain ⟨hm, ht⟩ := step_getRefresh hg
    refine ⟨ht, ?_⟩
    rcases run_refresh (wrun_lib hr') hm with hm | ⟨l, cl, u, ans, hm, -, h1, h2⟩
    · rw [← he] at hm
      have := (List.mem_filter.mp hm).2
      exact absurd hu (of_decide_eq_true this)
    · exact ⟨l, cl, u, ans, mem_libSteps.mp hm, h1, h2⟩
  · exact absurd rfl (hne _)

/-- C70, tokens, as far as it holds: a token created for the user after a logout goes back to an authorization request that was
recognised before this logout, or the user has logged in again. Missing is that the first case is excluded (`C70_refuted`). -/
theorem C70_partial (hb : Benign table) (w w' : WStore) (a b post : List WStep) (k i : Nat) (o : Op) (ans : ORes o.Ans)
    (c : Client) (u : User) (scopes : List PyStr)
    (hist : WHistory env table emailOk reqs (a ++ (k, ⟨.deleteSessions u.userId, .ok ()⟩) :: b ++ (i, ⟨.lib o, ans⟩) :: post))
    (hrun : WRun env w (a ++ (k, ⟨.deleteSessions u.userId, .ok ()⟩) :: b ++ (i, ⟨.lib o, ans⟩) :: post) w')
    (hs : ∀ s ∈ w.sessions, s.2 ≠ u.userId) (h0 : ∀ kv ∈ w.db.codes, kv.2.userId ≠ u.userId)
    (h1 : ∀ r ∈ w.db.refresh, r.userId ≠ u.userId)
    (hc : o = .createAccess c (.user (some u)) scopes ∨ o = .createRefresh c (some u) scopes) :
    (∃ j sid, (j, (⟨.session sid u.userId, .ok (some (some u))⟩ : WEv)) ∈ a ∧ (reqs j).route = .authorize) ∨
      ∃ l sid ans, (l, (⟨.saveSession sid u.userId, ans⟩ : WEv)) ∈ b ∧
        PasswordLogin reqs (a ++ (k, ⟨.deleteSessions u.userId, .ok ()⟩) :: b) l u.userId := by
  obtain ⟨j, sid, c', ws, x, y, ha, -⟩ := C71_end_to_end hb w w' _ post i o ans c u scopes hist hrun hs h0 h1 hc
  have hsp := ha.split
  rcases List.append_eq_append_iff.mp hsp with ⟨z, rfl, hz⟩ | ⟨z, rfl, hz⟩
  · cases z with
    | nil => exact absurd (Prod.mk.inj (List.cons.inj hz).1).2 (wev_ne WOp.noConfusion)
    | cons e z =>
      obtain ⟨rfl, rfl⟩ := List.cons.inj hz
      obtain ⟨l, ans', hm⟩ := live_after ha.live rfl
      refine Or.inr ⟨l, sid, ans', List.mem_append_left _ hm, ?_⟩
      obtain ⟨z1, z2, rfl⟩ := List.append_of_mem hm
      have hist' : WHistory env table emailOk reqs ((a ++ (k, ⟨.deleteSessions u.userId, .ok ()⟩) :: z1) ++
          (l, ⟨.saveSession sid u.userId, ans'⟩) :: (z2 ++ (j, ⟨.session sid u.userId, .ok (some (some u))⟩) :: y ++
            (i, ⟨.lib o, ans⟩) :: post)) := by
        simpa using hist
      obtain ⟨p1, p2, p3⟩ := saved_login hist'
      refine ⟨p1, p2, ?_⟩
      simp only [List.mem_append, List.mem_cons] at p3 ⊢
      rcases p3 with p3 | p3 | p3
      · exact Or.inl p3
      · exact Or.inr (Or.inl p3)
      · exact Or.inr (Or.inr (List.mem_append_left _ (List.mem_append_left _ p3)))
  · cases z with
    | nil => exact absurd (Prod.mk.inj (List.cons.inj hz).1).2.symm (wev_ne WOp.noConfusion)
    | cons e z =>
      obtain ⟨rfl, -⟩ := List.cons.inj hz
      exact Or.inl ⟨j, sid, by simp, ha.route⟩

/-- C70 for a user without anything left: if the logout was complete and no code of the user is left, every token created for the
user by requests that begin later is preceded by a login with the password of the user. -/
theorem C70_quiet_partial (hb : Benign table) (w w' : WStore) (pre post : List WStep) (i : Nat) (o : Op) (ans : ORes o.Ans)
    (c : Client) (u : User) (scopes : List PyStr)
    (hist : WHistory env table emailOk reqs (pre ++ (i, ⟨.lib o, ans⟩) :: post))
    (hrun : WRun env w (pre ++ (i, ⟨.lib o, ans⟩) :: post) w')
    (hs : ∀ s ∈ w.sessions, s.2 ≠ u.userId) (h0 : ∀ kv ∈ w.db.codes, kv.2.userId ≠ u.userId)
    (h1 : ∀ r ∈ w.db.refresh, r.userId ≠ u.userId)
    (hc : o = .createAccess c (.user (some u)) scopes ∨ o = .createRefresh c (some u) scopes) :
    ∃ l, PasswordLogin reqs pre l u.userId := by
  obtain ⟨j, sid, c', ws, x, y, ha, -⟩ := C71_end_to_end hb w w' _ post i o ans c u scopes hist hrun hs h0 h1 hc
  obtain ⟨a, l, ans', b, rfl, hl, -⟩ := ha.live
  refine ⟨l, hl.route, hl.method, ?_⟩
  rw [ha.split]
  simp [hl.password]

/-- What a simulation did in its first `n` steps and afterwards. -/
theorem webSim_cut (reqs : Nat → WebRequest) (l : List (Nat × Draw)) (n : Nat) :
    WHistory toyEnv (exHooks toyEnv) (fun _ => true) reqs ((webSim reqs l).1.take n ++ (webSim reqs l).1.drop n) ∧
      WRun toyEnv ⟨exStore, []⟩ ((webSim reqs l).1.take n ++ (webSim reqs l).1.drop n) (webSim reqs l).2.1 := by
  rw [List.take_append_drop]
  exact ⟨webSim_history reqs l, webSim_run reqs l⟩

/-- C70 is violated: a logout is finished, sessions and refresh tokens of the user are deleted, and then a client that begins its
request later receives an access token and a new refresh token of the user, with the code that was issued before the logout. -/
theorem C70_refuted : ∃ reqs h1 h2 w', WHistory toyEnv (exHooks toyEnv) (fun _ => true) reqs (h1 ++ h2) ∧
    WRun toyEnv ⟨exStore, []⟩ (h1 ++ h2) w' ∧
    (reqs 2).route = .logout ∧ (2, (⟨.deleteSessions (py! "u1"), .ok ()⟩ : WEv)) ∈ h1 ∧
    (2, (⟨.deleteRefresh (py! "u1"), .ok ()⟩ : WEv)) ∈ h1 ∧
    (∀ x ∈ h2, x.1 = 3) ∧ (∀ x ∈ h1, x.1 ≠ 3) ∧
    (∃ c scopes token, (3, (⟨.lib (.createAccess c (.user (some ⟨py! "u1"⟩)) scopes), .ok token⟩ : WEv)) ∈ h2) ∧
    (∃ c scopes token, (3, (⟨.lib (.createRefresh c (some ⟨py! "u1"⟩) scopes), .ok token⟩ : WEv)) ∈ h2) ∧
    ∃ headers body cookie, WExec (app toyEnv (exHooks toyEnv) (fun _ => true) (reqs 3)) (ofWeb 3 (h1 ++ h2))
      (.ok ⟨.response 200 headers body, cookie⟩) := by
  refine ⟨webReqs, (webSim webReqs webStory).1.take 12, (webSim webReqs webStory).1.drop 12, _,
    (webSim_cut webReqs webStory 12).1, (webSim_cut webReqs webStory 12).2, rfl,
    any_endsSessions (by decide +kernel), any_endsRefresh (by decide +kernel), ?_, ?_,
    any_accessFor (by decide +kernel), any_refreshFor (by decide +kernel), ?_⟩
  · have : ((webSim webReqs webStory).1.drop 12).all (fun x => decide (x.1 = 3)) = true := by decide +kernel
    intro x hx
    exact of_decide_eq_true (List.all_eq_true.mp this x hx)
  · have : ((webSim webReqs webStory).1.take 12).all (fun x => decide (x.1 ≠ 3)) = true := by decide +kernel
    intro x hx
    exact of_decide_eq_true (List.all_eq_true.mp this x hx)
  · rw [List.take_append_drop]
    exact webStatus_exec (by decide +kernel)

/-- The hypotheses of `C70_sessions` can be met: the user logs in again after the logout. -/
def webAgain : Nat → WebRequest
  | 0 | 3 => webLogin [] (py! "correct horse")
  | 1 | 4 => webAuthorize
  | _ => webLogout

/-- Login, authorization, logout, login, authorization. -/
def webTwice : List (Nat × Draw) := exTurn 0 4 2 ++ exTurn 1 4 0 ++ exTurn 2 4 0 ++ exTurn 3 4 2 ++ exTurn 4 4 1

example : (webSim webAgain webTwice).1.any (fun x => x.1 == 2 && endsSessions (py! "u1") x.2) = true ∧
    (ofWeb 4 (webSim webAgain webTwice).1).any (recognises (py! "u1")) = true ∧
    webStatus ((webSim webAgain webTwice).2.2 4) = some 303 := by decide +kernel

/-- Without the second login, the session is dead: the user is sent to the login page. -/
example : (ofWeb 4 (webSim webAgain (exTurn 0 4 2 ++ exTurn 1 4 0 ++ exTurn 2 4 0 ++ exTurn 4 4 1)).1).any
    (recognises (py! "u1")) = false := by decide +kernel

/-- A login, an authorization, a logout, the exchange of the code, and the use of the refresh token. -/
def webRefresh : Nat → WebRequest
  | 4 => { webExchange with body := by! "grant_type=refresh_token&refresh_token=bbbbbbbbbbbbbbbbbbbbbbbbbbbbbbbb" }
  | n => webReqs n

/-- Does the event find a refresh token of the user? -/
def findsRefresh (uid : PyStr) : WEv → Bool
  | ⟨.lib (.getRefresh _), .ok (some rt)⟩ => decide (rt.userId = uid)
  | _ => false

/-- The hypotheses of `C70_refresh` can be met: the refresh token that is found was created after the logout. -/
example : (ofWeb 2 (webSim webRefresh (webStory ++ exTurn 4 9 3)).1).any (endsRefresh (py! "u1")) = true ∧
    (ofWeb 4 (webSim webRefresh (webStory ++ exTurn 4 9 3)).1).any (findsRefresh (py! "u1")) = true := by decide +kernel

/-- A refresh token from before the logout is not found any more. -/
example : (ofWeb 4 (webSim webRefresh (exTurn 0 4 2 ++ exTurn 1 4 0 ++ exTurn 3 13 1 ++ exTurn 4 9 3)).1).any
      (findsRefresh (py! "u1")) = true ∧
    (ofWeb 4 (webSim webRefresh (exTurn 0 4 2 ++ exTurn 1 4 0 ++ exTurn 3 13 1 ++ exTurn 2 4 0 ++ exTurn 4 9 3)).1).any
      (findsRefresh (py! "u1")) = false := by decide +kernel

end Psion.Props
