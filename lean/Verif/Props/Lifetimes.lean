import Verif.Spec.Lifetimes
import Verif.Props.Rotation
import Verif.Props.Scopes

/-!
# Property C141: lifetimes of codes and tokens
-/

namespace Psion.Props

open Psion Spec Example

variable {env : OEnv} {table : Hooks} {emailOk : PyStr → Bool} {reqs : Nat → WebRequest}

theorem timed_run {w w' : WStore} {l : List (Draw × WStep)} (h : Timed env w l w') : WRun env w (stepsOf l) w' := by
  induction h with
  | nil => exact .nil _
  | step w w1 w2 d i ev l hop _ ih => exact .step _ _ _ _ _ _ ⟨d, Or.inl hop⟩ ih
  | failed w w1 w2 d i ev n l ha hs _ ih => exact .step _ _ _ _ _ _ ⟨d, Or.inr ⟨⟨n, ha⟩, hs⟩⟩ ih
  | outside w w1 w2 l ho _ ih => exact .outside _ _ _ _ ho ih

/-- What `save_authorization_code` stores, and when. -/
theorem op_code {d : Draw} {w : WStore} {o : WOp} {k : PyStr} {ac : AuthCode} (hm : (k, ac) ∈ (wOp env d w o).1.db.codes) :
    (k, ac) ∈ w.db.codes ∨ ∃ data c u, o = .lib (.saveCode k data c u) ∧ ac.clientId = c.clientId ∧ ac.userId = u.userId ∧
      ac.expiration = d.now + seconds 86400 := by
  cases o with
  | lib o =>
    rcases step_codes (env := env) (s := w.db) (ev := ⟨o, (exOp env d w.db o).2⟩) ⟨d, Or.inl rfl⟩ hm with h | ⟨data, c, u, ho, -⟩
    · exact Or.inl h
    · dsimp only at ho
      subst ho
      rcases saveCode_cases w.db d k data c u with ⟨hs, -⟩ | ⟨-, -, ac', hst, he, -, hs⟩
      · exact Or.inl (by rw [← hs]; exact hm)
      · have hm : (k, ac) ∈ (saveCode w.db d k data c u).1.codes := hm
        rw [hs] at hm
        rcases List.mem_cons.mp hm with hm | hm
        · cases hm
          exact Or.inr ⟨data, c, u, rfl, hst.client, hst.user, he⟩
        · exact Or.inl hm
  | saveSession sid uid =>
    left
    simp only [wOp] at hm
    split at hm <;> exact hm
  | _ => exact Or.inl hm

/-- What `create_refresh_token` stores, and when. -/
theorem op_refresh {d : Draw} {w : WStore} {o : WOp} {r : RefreshTok} (hm : r ∈ (wOp env d w o).1.db.refresh) :
    r ∈ w.db.refresh ∨ ∃ c u scopes, o = .lib (.createRefresh c (some u) scopes) ∧ r.clientId = c.clientId ∧ r.userId = u.userId ∧
      (HEq (wOp env d w o).2 (.ok r.token : ORes PyStr)) ∧ r.expiration = d.now + seconds (14 * 86400) := by
  cases o with
  | lib o =>
    rcases step_refresh (env := env) (s := w.db) (ev := ⟨o, (exOp env d w.db o).2⟩) ⟨d, Or.inl rfl⟩ hm with h | ⟨c, u, ans, ho, -⟩
    · exact Or.inl h
    · cases ho
      rcases createRefresh_cases w.db d c (some u) r.scopes with ⟨hs, -⟩ | ⟨u', token, hu, -, -, ha, hs⟩
      · exact Or.inl (by rw [← hs]; exact hm)
      · cases hu
        have hm : r ∈ (createRefresh w.db d c (some u) r.scopes).1.refresh := hm
        rw [hs] at hm
        rcases List.mem_cons.mp hm with hm | hm
        · refine Or.inr ⟨c, u, r.scopes, rfl, by rw [hm], by rw [hm], heq_of_eq ?_, by rw [hm]; rfl⟩
          have e : token = r.token := by rw [hm]
          rw [← e]
          exact ha
        · exact Or.inl hm
  | saveSession sid uid =>
    left
    simp only [wOp] at hm
    split at hm <;> exact hm
  | deleteRefresh uid => exact Or.inl (List.mem_filter.mp hm).1
  | _ => exact Or.inl hm

/-- Where the codes of the database come from. -/
theorem timed_code {w w' : WStore} {l : List (Draw × WStep)} (h : Timed env w l w') {k : PyStr} {ac : AuthCode}
    (hm : (k, ac) ∈ w'.db.codes) :
    (k, ac) ∈ w.db.codes ∨ ∃ t, CodeMadeAt l k ac.clientId ac.userId t ∧ ac.expiration = t + seconds 86400 := by
  induction h with
  | nil => exact Or.inl hm
  | step w w1 w2 d i ev l hop _ ih =>
    rcases ih hm with h | ⟨t, ⟨d', j, data, c, u, ans, h1, h2⟩, h3⟩
    · have e : w1 = (wOp env d w ev.op).1 := (congrArg Prod.fst hop).symm
      rw [e] at h
      rcases op_code h with h | ⟨data, c, u, ho, g1, g2, g3⟩
      · exact Or.inl h
      · obtain ⟨o, ans⟩ := ev
        cases ho
        exact Or.inr ⟨d.now, ⟨d, i, data, c, u, ans, List.mem_cons_self, rfl, g1.symm, g2.symm⟩, g3⟩
    · exact Or.inr ⟨t, ⟨d', j, data, c, u, ans, List.mem_cons_of_mem _ h1, h2⟩, h3⟩
  | failed w w1 w2 d i ev n l ha hs _ ih =>
    rcases ih hm with h | ⟨t, ⟨d', j, data, c, u, ans, h1, h2⟩, h3⟩
    · rcases hs with rfl | rfl
      · exact Or.inl h
      · rcases op_code h with h | ⟨data, c, u, ho, g1, g2, g3⟩
        · exact Or.inl h
        · obtain ⟨o, ans⟩ := ev
          cases ho
          exact Or.inr ⟨d.now, ⟨d, i, data, c, u, ans, List.mem_cons_self, rfl, g1.symm, g2.symm⟩, g3⟩
    · exact Or.inr ⟨t, ⟨d', j, data, c, u, ans, List.mem_cons_of_mem _ h1, h2⟩, h3⟩
  | outside w w1 w2 l ho _ ih =>
    rcases ih hm with h | h
    · exact Or.inl (ho.db.codes.subset h)
    · exact Or.inr h

/-- Where the refresh tokens of the database come from. -/
theorem timed_refresh {w w' : WStore} {l : List (Draw × WStep)} (h : Timed env w l w') {r : RefreshTok} (hm : r ∈ w'.db.refresh) :
    r ∈ w.db.refresh ∨ ∃ t, RefreshMadeAt l r.token r.clientId r.userId t ∧ r.expiration = t + seconds (14 * 86400) := by
  induction h with
  | nil => exact Or.inl hm
  | step w w1 w2 d i ev l hop _ ih =>
    rcases ih hm with h | ⟨t, ⟨d', j, c, u, sc, ans, h1, h2⟩, h3⟩
    · have e : w1 = (wOp env d w ev.op).1 := (congrArg Prod.fst hop).symm
      rw [e] at h
      rcases op_refresh h with h | ⟨c, u, sc, ho, g1, g2, g3, g4⟩
      · exact Or.inl h
      · obtain ⟨o, ans⟩ := ev
        cases ho
        have e2 : (wOp env d w (.lib (.createRefresh c (some u) sc))).2 = ans := congrArg Prod.snd hop
        rw [e2] at g3
        exact Or.inr ⟨d.now, ⟨d, i, c, u, sc, ans, List.mem_cons_self, rfl, Or.inl (eq_of_heq g3), g1.symm, g2.symm⟩, g4⟩
    · exact Or.inr ⟨t, ⟨d', j, c, u, sc, ans, List.mem_cons_of_mem _ h1, h2⟩, h3⟩
  | failed w w1 w2 d i ev n l ha hs _ ih =>
    rcases ih hm with h | ⟨t, ⟨d', j, c, u, sc, ans, h1, h2⟩, h3⟩
    · rcases hs with rfl | rfl
      · exact Or.inl h
      · rcases op_refresh h with h | ⟨c, u, sc, ho, g1, g2, g3, g4⟩
        · exact Or.inl h
        · obtain ⟨o, ans⟩ := ev
          cases ho
          exact Or.inr ⟨d.now, ⟨d, i, c, u, sc, ans, List.mem_cons_self, rfl, Or.inr ⟨n, ha⟩, g1.symm, g2.symm⟩, g4⟩
    · exact Or.inr ⟨t, ⟨d', j, c, u, sc, ans, List.mem_cons_of_mem _ h1, h2⟩, h3⟩
  | outside w w1 w2 l ho _ ih =>
    rcases ih hm with h | h
    · exact Or.inl (ho.db.refresh.subset h)
    · exact Or.inr h

/-- A history up to one of its events. -/
theorem timed_at {w w' : WStore} {l : List (Draw × WStep)} (h : Timed env w l w') : ∀ {a b : List (Draw × WStep)} {d : Draw} {i : Nat}
    {ev : WEv}, l = a ++ (d, i, ev) :: b → ∃ m m', Timed env w a m ∧ WEffect env m ev m' := by
  induction h with
  | nil => intro a b d i ev he; cases a <;> cases he
  | step w w1 w2 d' j ev' l hop _ ih =>
    intro a b d i ev he
    cases a with
    | nil => cases he; exact ⟨w, w1, .nil _, d', Or.inl hop⟩
    | cons x a =>
      cases he
      obtain ⟨m, m', h1, h2⟩ := ih rfl
      exact ⟨m, m', .step _ _ _ _ _ _ _ hop h1, h2⟩
  | failed w w1 w2 d' j ev' n l ha hs _ ih =>
    intro a b d i ev he
    cases a with
    | nil => cases he; exact ⟨w, w1, .nil _, d', Or.inr ⟨⟨n, ha⟩, hs⟩⟩
    | cons x a =>
      cases he
      obtain ⟨m, m', h1, h2⟩ := ih rfl
      exact ⟨m, m', .failed _ _ _ _ _ _ _ _ ha hs h1, h2⟩
  | outside w w1 w2 l ho _ ih =>
    intro a b d i ev he
    obtain ⟨m, m', h1, h2⟩ := ih he
    exact ⟨m, m', .outside _ _ _ _ ho h1, h2⟩

theorem stepsOf_append (a b : List (Draw × WStep)) : stepsOf (a ++ b) = stepsOf a ++ stepsOf b := List.map_append

/-- What a request has found was stored before. -/
theorem timed_found {w w' : WStore} {l : List (Draw × WStep)} (h : Timed env w l w') {i : Nat} {o : Op} {ans : ORes o.Ans}
    (hm : (i, (⟨.lib o, ans⟩ : WEv)) ∈ stepsOf l) :
    ∃ a m m', (∀ p ∈ a, p ∈ l) ∧ Timed env w a m ∧ ExStep env m.db ⟨o, ans⟩ m' := by
  obtain ⟨d, hm⟩ := mem_stepsOf hm
  obtain ⟨a, b, rfl⟩ := List.append_of_mem hm
  obtain ⟨m, m', h1, h2⟩ := timed_at h rfl
  rcases weffect_db h2 with ⟨o', ans', e1, e2⟩ | ⟨e1, -⟩
  · cases e1
    exact ⟨a, m, _, fun p hp => List.mem_append_left _ hp, h1, e2⟩
  · exact absurd rfl (e1 o)

/-- C141, upper bounds: whatever requests arrive, in whatever order their operations take place, wherever they fail and whatever
administration removes: an access token or a refresh token for a user is created only in one of two cases. The request presents a code
that was made for this client and this user less than a day before the time that the request has read; or a refresh token that was made
for them less than 14 days before. At the beginning there are no codes and no refresh tokens. -/
theorem C141_partial (hb : Benign table) (w w' : WStore) (pre post : List (Draw × WStep)) (d : Draw) (i : Nat) (o : Op)
    (ans : ORes o.Ans) (c : Client) (u : Option User) (scopes : List PyStr)
    (hist : WHistory env table emailOk reqs (stepsOf (pre ++ (d, i, ⟨.lib o, ans⟩) :: post)))
    (hrun : Timed env w (pre ++ (d, i, ⟨.lib o, ans⟩) :: post) w') (h0 : w.db.codes = []) (h1 : w.db.refresh = [])
    (hc : o = .createAccess c (.user u) scopes ∨ o = .createRefresh c u scopes) :
    ∃ user q uid now t, createRequest (reqs i) user = .ok q ∧ (∀ x, u = some x → x.userId = uid) ∧ ClockShown pre i now ∧
      ((∃ code, Dict.get q.data (py! "code") = some code ∧ CodeMadeAt pre code c.clientId uid t ∧ now < t + seconds 86400) ∨
        ∃ token, Dict.get q.data (py! "refresh_token") = some token ∧ RefreshMadeAt pre token c.clientId uid t ∧
          now < t + seconds (14 * 86400)) := by
  obtain ⟨m, m', hpre, -⟩ := timed_at hrun rfl
  have hrun1 := timed_run hpre
  obtain ⟨calls, hist', hcalls⟩ := whistory_calls hist
  have hsplit : libSteps (stepsOf (pre ++ (d, i, ⟨.lib o, ans⟩) :: post)) =
      libSteps (stepsOf pre) ++ (i, ⟨o, ans⟩) :: libSteps (stepsOf post) := by
    rw [stepsOf_append, libSteps_append]; rfl
  rw [hsplit] at hist'
  have hlc := hcalls i (by
    rw [hsplit, ofRequest_split]
    exact List.append_ne_nil_of_right_ne_nil _ (List.cons_ne_nil _ _))
  obtain ⟨p, q, hcall, g, -, -, -, -, hj⟩ := create_justified hb hist' (c := c) (u := u) (scopes := scopes) hc
  rw [hcall] at hlc
  obtain ⟨-, -, -, user, hq⟩ := hlc
  cases g with
  | authorizationCode =>
    obtain ⟨x, hx, code, ac, uri, verifier, now, h2, h3, h4, -, -, -, -, -, h5, h6, h7, -⟩ := hj
    cases hx
    have h7 := user_at hrun1 (mem_libSteps.mp (mem_ofRequest.mp h7))
    obtain ⟨a, m1, m2, hsub, ht, hs⟩ := timed_found hpre (mem_libSteps.mp (mem_ofRequest.mp h3))
    obtain ⟨k, hk, hm⟩ := step_getCode hs
    cases hk
    rcases timed_code ht (Dict.mem_of_get hm) with hn | ⟨t, ⟨d', j, data, c', u', ans', e1, e2, e3, e4⟩, e5⟩
    · rw [h0] at hn; cases hn
    · rw [e5] at h6
      exact ⟨user, q, x.userId, now, t, hq, by rintro y ⟨⟩; rfl, mem_stepsOf (mem_libSteps.mp (mem_ofRequest.mp h5)),
        Or.inl ⟨code, h2, ⟨d', j, data, c', u', ans', hsub _ e1, e2, by rw [e3, h4], by rw [e4, h7]⟩, h6⟩⟩
  | clientCredentials => cases hj.1
  | refreshToken =>
    obtain ⟨u2, hu2, token, rt, now, base, h2, h3, h4, h5, h6, h7, -⟩ := hj
    cases hu2
    obtain ⟨a, m1, m2, hsub, ht, hs⟩ := timed_found hpre (mem_libSteps.mp (mem_ofRequest.mp h3))
    obtain ⟨hm, rfl⟩ := step_getRefresh hs
    rcases timed_refresh ht hm with hn | ⟨t, ⟨d', j, c', u', sc, ans', e1, e2, e3, e4, e5⟩, e6⟩
    · rw [h1] at hn; cases hn
    · rw [e6] at h6
      refine ⟨user, q, rt.userId, now, t, hq, ?_, mem_stepsOf (mem_libSteps.mp (mem_ofRequest.mp h5)),
        Or.inr ⟨rt.token, h2, ⟨d', j, c', u', sc, ans', hsub _ e1, e2, e3, by rw [e4, h4], e5⟩, h6⟩⟩
      rintro x rfl
      exact user_at hrun1 (mem_libSteps.mp (mem_ofRequest.mp h7))

/-- A history without failures is one. -/
theorem operates_timed {w w' : WStore} {l : List (Draw × WStep)} (h : Operates env w l w') : Timed env w l w' := by
  induction h with
  | nil w => exact .nil w
  | step _ _ _ _ _ _ _ ho _ _ ih => exact .step _ _ _ _ _ _ _ ho ih

/-- There is such a history: a login, an authorization, and the exchange of the code. -/
example : ∃ w' d pre post c scopes ans, WHistory toyEnv (exHooks toyEnv) (fun _ => true) (stackReqs webParams webExchange)
      (stepsOf (pre ++ (d, 2, ⟨.lib (.createAccess c (.user (some ⟨py! "u1"⟩)) scopes), ans⟩) :: post)) ∧
    Timed toyEnv ⟨exStore, []⟩ (pre ++ (d, 2, ⟨.lib (.createAccess c (.user (some ⟨py! "u1"⟩)) scopes), ans⟩) :: post) w' ∧
    exStore.codes = [] ∧ exStore.refresh = [] ∧ Benign (exHooks toyEnv) := by
  have hs := wdrawn_steps toyEnv stackTurns ⟨exStore, []⟩
    (fun i => app toyEnv (exHooks toyEnv) (fun _ => true) (stackReqs webParams webExchange i))
  obtain ⟨c, scopes, token, hm⟩ := any_accessFor (uid := py! "u1") (i := 2)
    (h := (webSim (stackReqs webParams webExchange) stackTurns).1) (by decide +kernel)
  have hm' := hm
  rw [webSim, ← hs] at hm'
  obtain ⟨⟨d, st⟩, hp, rfl⟩ := List.mem_map.mp hm'
  obtain ⟨pre, post, heq⟩ := List.append_of_mem hp
  refine ⟨_, d, pre, post, c, scopes, .ok token, ?_, heq ▸ operates_timed (wdrawn_operates toyEnv stackTurns _ _ ?_), rfl, rfl,
    exHooks_benign _⟩
  · rw [← heq, hs]
    exact webSim_history _ _
  · exact (by decide +kernel : stackNew (stackReqs webParams webExchange) = true)

/-! ## Access tokens -/

theorem exHooks_wf (env : OEnv) : HooksWf (exHooks env) := by
  intro f hf token data client user tr d hx
  obtain rfl : f = oidcTokenResponse env exProvider.cfg := List.mem_singleton.mp hf
  obtain ⟨scope, -, ⟨-, tok, info, userinfo, now, -, ho⟩ | ⟨-, ho⟩⟩ := exec_oidcTokenResponse hx
  · cases ho
    exact wfD_iff.mpr (by intro kv hkv; rw [List.mem_singleton.mp hkv]; trivial)
  · cases ho

/-- The lifetime that an answer announces. -/
theorem announced (hl : FloatLaws env.cr.fe) (hb : Benign table) (hw : HooksWf table) {p : Provider}
    {req : Request} {tr : List Ev} {r : Response} (h : Exec (p.token env table req) tr (.ok r)) (hok : r.status = 200) :
    ∃ d c owner scopes access, JsonBody env.cr.fe r d ∧ (⟨.createAccess c owner scopes, .ok access⟩ : Ev) ∈ tr ∧
      Dict.get d (py! "access_token") = some (.str access) ∧ Dict.get d (py! "expires_in") = some (.int p.cfg.tokenLifespan) := by
  rcases token_response hb h with ⟨token, ⟨g, c, hu, hd⟩, hj⟩ | ⟨x, -, hj⟩
  · cases g with
    | authorizationCode =>
      obtain ⟨code, ac, user, access, refresh, valid, tr', h1, h2, h3, h4, h5, h6, h7, h8, h9⟩ := hd.1.done
      have hbh : ∀ f ∈ tokenResponseHooks table valid c user, ∀ acc, BenignHook responseKeys (f acc) := benign_tokenResponse hb valid c user
      have hkeys := runHooks_keys hbh h8
      obtain ⟨g1, -, g3, -, -⟩ := createToken_get p.cfg access refresh (some ac.scopes)
      have hwf : (Val.dict token).Wf := by
        refine runHooks_inv (I := fun d => (Val.dict d).Wf) hbh (h := tr) ?_ (fun _ _ => rfl) (wf_createToken _ _ _ _) h9 h8
        rintro f hf acc tr' d - - hx hacc
        obtain ⟨f', hf', rfl⟩ := List.mem_map.mp hf
        have hd := hw f' hf' _ _ _ _ _ _ hx
        refine ⟨Dict.ok_update hacc.1 _, ?_⟩
        rw [wfD_iff]
        intro kv hkv
        rcases Dict.mem_update hkv with hkv | hkv
        · exact wfD_iff.mp hacc.2 kv hkv
        · exact wfD_iff.mp hd kv hkv
      exact ⟨token, c, _, ac.scopes, access, jsonResponse_body hl hwf hj, h5, by rw [hkeys _ (by decide), g1],
        by rw [hkeys _ (by decide), g3]⟩
    | clientCredentials =>
      obtain ⟨scopes, access, -, hm, rep, rfl, -⟩ := hd.done
      obtain ⟨g1, -, g3, -, -⟩ := createToken_get p.cfg access none rep
      exact ⟨_, c, _, scopes, access, jsonResponse_body hl (wf_createToken _ _ _ _) hj, hm, g1, g3⟩
    | refreshToken =>
      obtain ⟨text, rt, user, scopes, access, refresh, -, -, -, -, h5, -, -, rfl⟩ := hd.done
      obtain ⟨g1, -, g3, -, -⟩ := createToken_get p.cfg access refresh (if scopes = rt.scopes then none else some scopes)
      exact ⟨_, c, _, scopes, access, jsonResponse_body hl (wf_createToken _ _ _ _) hj, h5, g1, g3⟩
  · rw [(jsonResponse_status hj).1] at hok
    cases hok

/-- C141, access tokens: the number of seconds that the answer announces as `expires_in` is the time for which the access token in the
same answer is accepted, counted from the moment at which it was made: so long, and no longer. -/
theorem C141_access (hl : FloatLaws env.cr.fe) (req : Request) (tr : List Ev) (r : Response)
    (h : Exec (exProvider.token env (exHooks env) req) tr (.ok r)) (hok : r.status = 200) :
    ∃ dict c owner scopes access n, JsonBody env.cr.fe r dict ∧ (⟨.createAccess c owner scopes, .ok access⟩ : Ev) ∈ tr ∧
      Dict.get dict (py! "access_token") = some (.str access) ∧ Dict.get dict (py! "expires_in") = some (.int n) ∧
      ∀ d s s', exOp env d s (.createAccess c owner scopes) = (s', .ok access) → 0 < d.stamp → ∀ n1 n2,
        (∃ jwt, Jwt.decodeStr env.cr n1 n2 access exKey (some (py! "HS256")) true .none = .ok jwt) ↔
          d.stamp ≤ n1 ∧ n1 < d.stamp + n ∧ d.stamp ≤ n2 ∧ n2 < d.stamp + n := by
  obtain ⟨dict, c, owner, scopes, access, h1, h2, h3, h4⟩ := announced hl (exHooks_benign env) (exHooks_wf env) h hok
  refine ⟨dict, c, owner, scopes, access, 3600, h1, h2, h3, h4, ?_⟩
  intro d s s' hop h0 n1 n2
  constructor
  · rintro ⟨jwt, hd⟩
    exact C65_expires env hl d s s' c owner scopes access hop h0 n1 n2 _ (Or.inr rfl) _ jwt hd
  · rintro ⟨g1, g2, g3, g4⟩
    obtain ⟨sub, -, hr⟩ := C65_content env hl d s s' c owner scopes access hop
    obtain ⟨jwt, hd, -⟩ := hr n1 n2 g1 g2 g3 g4
    exact ⟨jwt, hd⟩

/-- The hypotheses are satisfiable: the exchange of a code, at the first second of the epoch. -/
example : ∃ r dict c owner scopes access, outcome flow1.2.2 = some (.ok r) ∧ r.status = 200 ∧ JsonBody toyEnv.cr.fe r dict ∧
    (⟨.createAccess c owner scopes, .ok access⟩ : Ev) ∈ events flow1.1 ∧ 0 < (exDraw 1).stamp := by
  obtain ⟨r, o, hs⟩ := outcome_of_status (by decide +kernel : finished 200 flow1.2.2 = true)
  obtain ⟨dict, c, owner, scopes, access, n, h1, h2, -⟩ := C141_access toyFloat_laws _ _ _ (solo_exec o) hs
  exact ⟨r, dict, c, owner, scopes, access, o, hs, h1, h2, by decide⟩

/-! ## Codes -/

/-- C141 is false for codes: RFC 6749 recommends that a code expires after at most ten minutes. A code of the example application that
was stored at some time is exchanged for tokens at any later time within a day, whatever other requests do in between, if nobody presents
it before. -/
theorem C141_refuted (hl : FloatLaws env.cr.fe) (hh : HashLengths env.he) {w0 w : WStore} (d : Draw) (code : PyStr)
    (data : Dict PyStr Val) (row : ClientRow) (urow : UserRow)
    (hsave : wOp env d w0 (.lib (.saveCode code data row.client urow.user)) = (w, .ok ()))
    (hs : SoundStore w.db) (hk : KeyedStore w.db)
    (hc : w.db.findClient row.id = some row) (hu : w.db.findUser urow.id = some urow) :
    ∃ ac, (code, ac) ∈ w.db.codes ∧ ∀ w1 w' h l out exch, (∀ s ∈ ac.scopes, s ∈ standardScopes) →
      Meanwhile env emailOk w w1 reqs h → NotPresented reqs h code → TokenCall exch →
      (∀ r, ArrivesAs exch none r → Exchanges env r row code ac.redirectUri ac.challenge ac.challengeMethod) →
      Visit env emailOk w1 exch l w' out → (∀ p ∈ l, d.now + codeMaximum < p.1.now ∧ p.1.now < d.now + seconds 86400) →
      ∃ r reply, out = .ok ⟨reply, none⟩ ∧ PassedOn r reply ∧
        ServedExchange env w1.db (libDraws l) w'.db row urow code ac.scopes r := by
  rcases saveCode_cases w0.db d code data row.client urow.user with ⟨-, e, he⟩ | ⟨-, -, ac, hst, he, -, h1⟩
  · have : (saveCode w0.db d code data row.client urow.user).2 = .ok () := congrArg Prod.snd hsave
    rw [he] at this
    cases this
  · have hw : w.db = (saveCode w0.db d code data row.client urow.user).1 := by
      exact (congrArg (fun x => x.1.db) hsave).symm
    have hm : (code, ac) ∈ w.db.codes := by
      rw [hw, h1]
      exact List.mem_cons_self
    refine ⟨ac, hm, ?_⟩
    intro w1 w' h l out exch hsc hmw hnp htc hex hv htime
    exact C134_code hl hh hs hk row urow code ac hc hu hm hst.client hst.user hsc hmw hnp exch htc hex hv
      (fun p hp => by rw [he]; exact (htime p hp).2)

/-! ### The hypotheses are satisfiable -/

/-- The code is stored one second after the beginning of the epoch. -/
def lateSaved := wOp toyEnv (exDraw 0) ⟨exStore, []⟩ (.lib (.saveCode (List.replicate 64 97)
  [(py! "redirect_uri", .str (py! "https://c/cb")), (py! "scopes", .list [.str (py! "openid")]), (py! "code_challenge", .str toyVerifier),
    (py! "code_challenge_method", .str (py! "plain")), (py! "nonce", .str (py! "n"))] exClient.client exUser.user))

/-- The exchange takes place at the end of the first day. -/
def lateDraw : Draw := exDrawAt 86400000000 1

def lateProg := app toyEnv (exHooks toyEnv) (fun _ => true) webExchange

def lateVisit := wsolo toyEnv (List.replicate 13 lateDraw) lateSaved.1 lateProg

def lateCode : AuthCode :=
  ⟨py! "c1", py! "u1", py! "https://c/cb", [py! "openid"], toyVerifier, py! "plain", some (py! "n"), 1000000 + 86400 * 1000000⟩

theorem late_store : lateSaved.1 = ⟨{ exStore with codes := [(List.replicate 64 97, lateCode)] }, []⟩ ∧ lateSaved.2 = .ok () := by
  constructor <;> rfl

theorem late_visit : ∃ sv, wout lateVisit.2.2 = some (.ok sv) ∧
    Visit toyEnv (fun _ => true) lateSaved.1 webExchange lateVisit.1 lateVisit.2.1 (.ok sv) := by
  have h1 : wnew toyEnv (List.replicate 13 lateDraw) lateSaved.1 lateProg = true := by decide +kernel
  have h2 : (match wout lateVisit.2.2 with | some (.ok _) => true | _ => false) = true := by decide +kernel
  split at h2
  · rename_i sv hsv
    refine ⟨sv, hsv, wsolo_operates h1, promptFor_stamps ?_, wsolo_exec hsv⟩
    intro q hq
    obtain ⟨p, hp, rfl⟩ := List.mem_map.mp hq
    rw [List.eq_of_mem_replicate (wsolo_draws p hp)]
    exact ⟨rfl, rfl⟩
  · cases h2

/-- C141 is violated: almost a day after the code was made, it is exchanged for tokens. -/
example : ∃ r reply, wout lateVisit.2.2 = some (.ok ⟨reply, none⟩) ∧ PassedOn r reply ∧
    ServedExchange toyEnv lateSaved.1.db (libDraws lateVisit.1) lateVisit.2.1.db exClient exUser (List.replicate 64 97)
      [py! "openid"] r := by
  obtain ⟨sv, o, v⟩ := late_visit
  have hdb := late_store.1
  have hs : SoundStore lateSaved.1.db := by
    rw [hdb]
    refine ⟨⟨exStore_sound.plain.users, exStore_sound.plain.clients, ?_, exStore_sound.plain.refresh⟩, ?_, exStore_sound.refresh⟩
    · intro code ac h s hs
      cases List.mem_singleton.mp h
      cases List.mem_singleton.mp hs
      exact encodable_ascii (by decide)
    · intro code ac h
      cases List.mem_singleton.mp h
      exact List.cons_ne_nil _ _
  obtain ⟨ac, hac, H⟩ := C141_refuted (emailOk := fun _ => true) (reqs := fun _ => webExchange) toyFloat_laws toyHash_lengths
    (w := lateSaved.1) (exDraw 0) _ _ exClient exUser (Prod.ext rfl late_store.2) hs (by rw [hdb]; exact ⟨by simp, List.nodup_nil⟩)
    (by rw [hdb]; rfl) (by rw [hdb]; rfl)
  rw [hdb] at hac
  cases List.mem_singleton.mp hac
  obtain ⟨r, reply, e, h1, h2⟩ := H _ _ _ _ _ webExchange (by decide)
    (nothing_meanwhile fun _ => ⟨(tour_call (body := webExchange.body)).names, nofun⟩)
    (fun pre i ev post q id he => by cases pre <;> cases he)
    (tour_call (body := webExchange.body)) (by
      intro r hr
      have hd := arrived_data hr
      have hget : [py! "grant_type", py! "code", py! "redirect_uri", py! "code_verifier"].map (Dict.get r.data) =
          [some (py! "authorization_code"), some (List.replicate 64 97), some (py! "https://c/cb"), some toyVerifier] := by
        rw [hd]
        decide +kernel
      simp only [List.map_cons, List.map_nil, List.cons.injEq, and_true] at hget
      obtain ⟨g1, g2, g3, g4⟩ := hget
      exact ⟨g1, by decide, ⟨.basic, tour_identifies (body := webExchange.body) hr⟩, ⟨g2, by decide⟩, ⟨g3, by decide, by decide⟩,
        toyVerifier, g4, by decide, Or.inl ⟨rfl, rfl⟩⟩) v (by
      intro p hp
      rw [List.eq_of_mem_replicate (wsolo_draws p hp)]
      decide)
  cases e
  exact ⟨r, reply, o, h1, h2⟩

end Psion.Props
