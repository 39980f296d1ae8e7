import Verif.Example.WebLogin
import Verif.Props.Web

/-!
# Properties C72, C73, C74, C75: login and redirects of the example application
-/

namespace Psion.Props

open Psion Spec Example

variable {env : OEnv} {table : Hooks} {emailOk : PyStr → Bool} {reqs : Nat → WebRequest}

/-! ## C72 -/

/-- How a request ends that is not recognised as one of a user. -/
theorem anonymous_exec {req : WebRequest} {tr : List WEv} {sv : Served}
    (h : WExec (app env table emailOk req) tr (.ok sv))
    (hn : ∀ sid uid x, (⟨.session sid uid, .ok (some x)⟩ : WEv) ∉ tr) :
    ∃ tr', WExec (view env table emailOk req none) tr' (.ok sv) ∧ ∀ ev ∈ tr', ev ∈ tr := by
  unfold app at h
  split at h
  · exact ⟨tr, h, fun _ h => h⟩
  · cases h with
    | op _ _ r t _ h =>
      cases r with
      | error e =>
        obtain ⟨-, h⟩ := wexec_done h
        cases h
      | ok x =>
        cases x with
        | none => exact ⟨t, h, fun _ h => List.mem_cons_of_mem _ h⟩
        | some x => exact absurd List.mem_cons_self (hn _ _ x)

/-- C72: a user who is not logged in and opens an authorization request is sent to the login page of the same site. Whoever follows
this redirect and logs in successfully, is then sent to exactly the authorization request from the beginning. -/
theorem C72_login_detour (req : WebRequest) (tr : List WEv) (sv : Served) (hr : req.route = .authorize)
    (hm : req.method = py! "GET") (hx : WExec (app env table emailOk req) tr (.ok sv))
    (hn : ∀ sid uid x, (⟨.session sid uid, .ok (some x)⟩ : WEv) ∉ tr)
    (hs1 : 63 ∉ req.site) (hs2 : 35 ∉ req.site) (hu : req.url ≠ []) :
    sv.cookie = none ∧ ∃ base loc, quotePlus locSafe (req.site ++ py! "/auth/login") = .ok base ∧ (∃ q, loc = base ++ py! "?" ++ q) ∧
      sv.reply = .response 303 [(py! "location", loc)] [] ∧
      ∀ (lr : WebRequest) (trl : List WEv) (svl : Served) (ck : Cookie), lr.query = urlQuery loc →
        WExec (app env table emailOk lr) trl (.ok svl) → svl.cookie = some ck →
        ∃ loc', quotePlus locSafe req.url = .ok loc' ∧ svl.reply = .response 303 [(py! "location", loc')] [] ∧
          ((∀ c ∈ req.url, c < 128 ∧ c ≠ 32 ∧ (alwaysSafe c || locSafe c) = true) → loc' = req.url) := by
  obtain ⟨tr', hv, -⟩ := anonymous_exec hx hn
  unfold view at hv
  rw [hr] at hv
  dsimp only at hv
  rw [if_pos (by unfold isGet; rw [hm]; decide)] at hv
  unfold authorizeGet at hv
  dsimp only at hv
  split at hv
  · obtain ⟨-, h⟩ := wexec_done hv
    cases h
  · rename_i u hu'
    obtain ⟨-, h⟩ := wexec_done hv
    cases hred : redirectTo u with
    | error e => rw [hred] at h; cases h
    | ok reply =>
      rw [hred] at h
      cases h
      obtain ⟨loc, hl, rfl⟩ := redirectTo_ok hred
      have hl1 : 63 ∉ loginUrl req := by
        unfold loginUrl
        rw [List.mem_append]
        rintro (h | h)
        · exact hs1 h
        · revert h; decide
      have hl2 : 35 ∉ loginUrl req := by
        unfold loginUrl
        rw [List.mem_append]
        rintro (h | h)
        · exact hs2 h
        · revert h; decide
      obtain ⟨base, v, h1, h2, h3, h4⟩ := login_location hu' hl hl1 hl2
      refine ⟨rfl, base, loc, h1, ⟨_, h3⟩, rfl, ?_⟩
      intro lr trl svl ck hq hxl hck
      obtain ⟨-, -, -, -, -, hred⟩ := app_cookie hxl hck
      rw [afterLogin_next h2 hu (hq.trans h4)] at hred
      obtain ⟨loc', k1, k2⟩ := redirectTo_ok hred
      refine ⟨loc', k1, k2, fun hsafe => ?_⟩
      rw [quotePlus_safe hsafe] at k1
      cases k1
      rfl

/-- Nobody is logged in: the authorization request leads to the login page, and the login leads back. -/
example : ∃ v, webServed ((webSim (fun _ => { webAuthorize with cookie := none }) []).2.2 0) =
      some ⟨.response 303 [(py! "location", webSite ++ py! "/auth/login?next=" ++ v)] [], none⟩ ∧
    webServed ((webSim (fun _ => webLogin (py! "next=" ++ v) (py! "correct horse")) (exTurn 0 4 2)).2.2 0) =
      some ⟨.response 303 [(py! "location", webAuthorize.url)] [], some webCookie⟩ := by
  refine ⟨py! "http%3A%2F%2Flocalhost%3A8000%2Fconnect%2Fauthorize%3Fresponse_type%3Dcode%26client_id%3Dc1%26redirect_uri%3Dhttps%3A%2F%2Fc%2Fcb%26scope%3Dopenid%26state%3Ds%26code_challenge%3D" ++
    toyVerifier ++ py! "%26code_challenge_method%3Dplain%26nonce%3Dn", ?_⟩
  decide +kernel

/-! ## C73 -/

/-- C73, as far as it holds: a successful login ends with a redirect to the start page of the site, or to a value of the parameter
`next` in the query string of the login. Missing is that this value belongs to the site (`C73_refuted`). -/
theorem C73_partial (req : WebRequest) (tr : List WEv) (sv : Served) (ck : Cookie)
    (hx : WExec (app env table emailOk req) tr (.ok sv)) (hc : sv.cookie = some ck) :
    ∃ url loc, quotePlus locSafe url = .ok loc ∧ sv.reply = .response 303 [(py! "location", loc)] [] ∧
      (url = req.site ++ py! "/" ∨
        ∃ n v, n ++ py! "=" ++ v ∈ splitOn 38 req.query ∧ unquotePlus n = py! "next" ∧ unquotePlus v = url) := by
  obtain ⟨-, -, -, -, -, hred⟩ := app_cookie hx hc
  obtain ⟨loc, h1, h2⟩ := redirectTo_ok hred
  refine ⟨_, loc, h1, h2, ?_⟩
  unfold afterLogin
  split
  · rename_i c s hg
    right
    unfold queryParams at hg
    have hm := Dict.mem_of_get hg
    have hm := (Dict.mem_update hm).resolve_left nofun
    obtain ⟨nv, hm, hp⟩ := List.mem_filterMap.mp hm
    unfold parsePairBlank at hp
    split at hp
    · cases hp
    · split at hp
      · cases (Prod.mk.inj (Option.some.inj hp)).2
      · rename_i n v hsp
        have hp := Option.some.inj hp
        obtain ⟨rfl, -⟩ := splitOnce_some hsp
        refine ⟨n, v, by simpa using hm, (Prod.mk.inj hp).1, (Prod.mk.inj hp).2⟩
  · exact Or.inl rfl

/-- C73 is violated: for every target whatsoever there is a query string for the login page such that every successful login with it
ends with a redirect to this target. -/
theorem C73_refuted (target : PyStr) (ht : Encodable target) (hne : target ≠ []) :
    ∃ query, ∀ (env : OEnv) (table : Hooks) (emailOk : PyStr → Bool) (req : WebRequest) (tr : List WEv) (sv : Served) (ck : Cookie),
      req.query = query → WExec (app env table emailOk req) tr (.ok sv) → sv.cookie = some ck →
      ∃ loc, quotePlus locSafe target = .ok loc ∧ sv.reply = .response 303 [(py! "location", loc)] [] := by
  obtain ⟨v, hv⟩ := quotePlus_ok noSafe ht
  refine ⟨py! "next" ++ 61 :: v, ?_⟩
  intro env table emailOk req tr sv ck hq hx hc
  obtain ⟨-, -, -, -, -, hred⟩ := app_cookie hx hc
  rw [afterLogin_next hv hne hq] at hred
  exact redirectTo_ok hred

/-- Login with a foreign target: the user ends up there. -/
example : ((webSim (fun _ => webLogin (py! "next=https%3A%2F%2Fevil.example%2F") (py! "correct horse")) (exTurn 0 4 2)).2.2 0 |>
      webServed) =
    some ⟨.response 303 [(py! "location", py! "https://evil.example/")] [], some webCookie⟩ := by decide +kernel

/-! ## C75 -/

theorem form_valid_iff {f : LoginForm} : f.valid emailOk = true ↔ GoodForm emailOk f := by
  unfold LoginForm.valid filledIn
  constructor
  · intro h
    simp only [Bool.and_eq_true, List.any_eq_true, Bool.not_eq_true', decide_eq_true_eq] at h
    exact ⟨h.1.1.1.1, ⟨h.1.1.1.2, h.1.1.2⟩, h.1.2, h.2⟩
  · rintro ⟨h1, h2, h3⟩
    simp only [Bool.and_eq_true, List.any_eq_true, Bool.not_eq_true', decide_eq_true_eq]
    exact ⟨⟨⟨⟨h1, h2.1⟩, h2.2⟩, h3.1⟩, h3.2⟩

/-- C75, first half: whenever a request ends with a session cookie, it is a login with the password of the user that the cookie
names, in a form that is filled in as the page demands (with its token against cross-site requests), and the session that the cookie names was created by a login with the password of this user; at a moment of the history this
session was alive. -/
theorem C75_cookie (w w' : WStore) (h : List WStep) (i : Nat) (sv : Served) (ck : Cookie)
    (hist : WHistory env table emailOk reqs h) (hrun : WRun env w h w')
    (h0 : ∀ s ∈ w.sessions, s.2 ≠ ck.userId)
    (hx : WExec (app env table emailOk (reqs i)) (ofWeb i h) (.ok sv)) (hc : sv.cookie = some ck) :
    PasswordLogin reqs h i ck.userId ∧ GoodForm emailOk (reqs i).form ∧
      ∃ a b, h = a ++ b ∧ LiveSession reqs a ck.sessionId ck.userId := by
  obtain ⟨h1, h2, hv, h3, h4, -⟩ := app_cookie hx hc
  refine ⟨⟨h1, h2, mem_ofWeb.mp h3⟩, form_valid_iff.mp hv, ?_⟩
  rcases h4 with h4 | h4
  · obtain ⟨a, b, rfl⟩ := List.append_of_mem (mem_ofWeb.mp h4)
    refine ⟨a, _, rfl, ?_⟩
    obtain ⟨m, m', hr, he, -⟩ := wrun_at hrun
    obtain ⟨d, he⟩ := he
    have he := Except.ok.inj (congrArg Prod.snd (he.resolve_right (by rintro ⟨⟨n, hn⟩, -⟩; cases hn)))
    obtain ⟨s, hs, hs1⟩ := Option.map_eq_some_iff.mp he
    have hs2 := List.find?_some hs
    have hs2 : s.2 = ck.userId := of_decide_eq_true hs2
    have hm : (ck.sessionId, ck.userId) ∈ m.sessions := by
      rw [← hs1, ← hs2]
      exact List.mem_of_find?_eq_some hs
    rcases wrun_sessions hr hm with ⟨hm, -⟩ | ⟨a', j, ans, b', rfl, hb⟩
    · exact absurd rfl (h0 _ hm)
    · rw [List.append_assoc, List.cons_append] at hist
      exact ⟨a', j, ans, b', rfl, saved_login hist, hb⟩
  · obtain ⟨a, b, rfl⟩ := List.append_of_mem (mem_ofWeb.mp h4)
    exact ⟨a ++ [(i, ⟨.saveSession ck.sessionId ck.userId, .ok ()⟩)], b, by simp, a, i, .ok (), [], rfl, saved_login hist, nofun⟩

theorem encodable_afterLogin {req : WebRequest} (hs : Encodable req.site) (hq : Encodable req.query) :
    Encodable (afterLogin req) := by
  unfold afterLogin
  split
  · rename_i c s hg
    unfold queryParams at hg
    have hm := (Dict.mem_update (Dict.mem_of_get hg)).resolve_left nofun
    obtain ⟨nv, hm, hp⟩ := List.mem_filterMap.mp hm
    unfold parsePairBlank at hp
    split at hp
    · cases hp
    · split at hp
      · cases (Prod.mk.inj (Option.some.inj hp)).2
      · rename_i n v hsp
        have hp := (Prod.mk.inj (Option.some.inj hp)).2
        obtain ⟨rfl, -⟩ := splitOnce_some hsp
        rw [← hp]
        refine encodable_unquotePlus (fun x hx => hq x ?_)
        exact mem_splitOn hm x (by simp [hx])
  · exact encodable_append hs (encodable_ascii (by decide))

/-- C75, second half, as far as it holds: a valid login form with the e-mail address and the password of a user logs this user in, if
they are the first user with this address, the database works, and the random session id is new. The session is in the database
afterwards. Missing are users who share their address with an earlier one (`C75_refuted`). -/
theorem C75_login_partial (w w' : WStore) (req : WebRequest) (row : UserRow) (tr : List WEv) (out : ORes Served)
    (hr : req.route = .login) (hm : req.method = py! "POST") (hck : req.cookie = none) (hgood : GoodForm emailOk req.form)
    (hrow : w.db.users.find? (fun u => decide (u.email = req.form.email)) = some row)
    (hpw : row.password = req.form.password) (hsite : Encodable req.site) (hquery : Encodable req.query)
    (hx : WExec (app env table emailOk req) tr out) (hu : RunsAlone env w tr w')
    (hfresh : ∀ cs sid, (⟨.choices32, .ok cs⟩ : WEv) ∈ tr → secretToken cs.val = .ok sid → sid ∉ w.sessions.map Prod.fst) :
    ∃ sid loc, (sid, row.id) ∈ w'.sessions ∧ out = .ok ⟨.response 303 [(py! "location", loc)] [], some ⟨row.id, sid⟩⟩ := by
  have hv := form_valid_iff.mpr hgood
  obtain ⟨loc, hl⟩ := quotePlus_ok locSafe (encodable_afterLogin hsite hquery)
  have fin : ∀ {w1 : WStore} {t : List WEv} {sid : PyStr}, (sid, row.id) ∈ w1.sessions → WExec (loggedIn req row.id sid) t out →
      RunsAlone env w1 t w' →
      ∃ sid loc, (sid, row.id) ∈ w'.sessions ∧ out = .ok ⟨.response 303 [(py! "location", loc)] [], some ⟨row.id, sid⟩⟩ := by
    intro w1 t sid hs h hu
    unfold loggedIn redirectTo at h
    rw [hl] at h
    obtain ⟨rfl, rfl⟩ := wexec_done h
    cases hu
    exact ⟨sid, loc, hs, rfl⟩
  unfold app at hx
  rw [hck] at hx
  dsimp only at hx
  unfold view at hx
  rw [hr] at hx
  dsimp only at hx
  rw [if_neg (by unfold isGet; rw [hm]; decide), if_pos (by unfold isPost; rw [hm]; decide)] at hx
  unfold loginPost at hx
  dsimp only at hx
  rw [hv, if_neg (by decide)] at hx
  cases hx with
  | op _ _ r t _ hx =>
    cases hu with
    | step _ w1 _ d _ _ he hu =>
      simp only [wOp, hrow, Option.map_some, Prod.mk.injEq] at he
      obtain ⟨rfl, rfl⟩ := he
      dsimp only [WProg.bind] at hx
      rw [if_neg (by rw [hpw]; exact fun h => h rfl)] at hx
      cases hx with
      | op _ _ r t _ hx =>
        cases hu with
        | step _ w1 _ d _ _ he hu =>
          simp only [wOp, Prod.mk.injEq] at he
          obtain ⟨rfl, rfl⟩ := he
          cases hf : w.sessions.find? (fun s => decide (s.2 = row.id)) with
          | some s =>
            rw [hf] at hx
            have hs2 := List.find?_some hf
            have hs2 : s.2 = row.id := of_decide_eq_true hs2
            exact fin (hs2 ▸ List.mem_of_find?_eq_some hf) hx hu
          | none =>
            rw [hf] at hx
            cases hx with
            | op _ _ r t _ hx =>
              cases hu with
              | step _ w1 _ d _ _ he hu =>
                simp only [wOp, Prod.mk.injEq] at he
                obtain ⟨rfl, rfl⟩ := he
                obtain ⟨sid, hsid, hlen, -⟩ := C10_secret_token d.choices32.val (by
                  intro h
                  have := d.choices32.property
                  rw [h] at this
                  cases this)
                rw [d.choices32.property] at hlen
                dsimp only [WProg.bind] at hx
                rw [hsid] at hx
                cases hx with
                | op _ _ r t _ hx =>
                  have hnew := hfresh d.choices32 sid (by simp) hsid
                  cases hu with
                  | step _ w1 _ d _ _ he hu =>
                    have hfu : (w.db.findUser row.id).isSome := by
                      unfold Store.findUser
                      rw [List.find?_isSome]
                      exact ⟨row, List.mem_of_find?_eq_some hrow, by simp⟩
                    simp only [wOp] at he
                    rw [if_pos ⟨by omega, hnew, hfu⟩] at he
                    simp only [Prod.mk.injEq] at he
                    obtain ⟨rfl, rfl⟩ := he
                    exact fin List.mem_cons_self hx hu

/-- An undisturbed login. -/
theorem undisturbed_wrong {users : List UserRow} {w : WStore} (hw : w.db.users = users) {req : WebRequest} {row : UserRow}
    (hr : req.route = .login) (hm : req.method = py! "POST") (hck : req.cookie = none) (hgood : GoodForm emailOk req.form)
    (hrow : users.find? (fun u => decide (u.email = req.form.email)) = some row) (hpw : row.password ≠ req.form.password) (d : Draw) :
    ∃ tr, WExec (app env table emailOk req) tr (.ok ⟨.page .invalidCredentials, none⟩) ∧ RunsAlone env w tr w := by
  refine ⟨[⟨.userByEmail req.form.email, .ok (some (row.id, row.password))⟩], ?_, .step _ w _ d _ _ ?_ (.nil _)⟩
  · unfold app
    rw [hck]
    dsimp only
    unfold view
    rw [hr]
    dsimp only
    rw [if_neg (by unfold isGet; rw [hm]; decide), if_pos (by unfold isPost; rw [hm]; decide)]
    unfold loginPost
    dsimp only
    rw [form_valid_iff.mpr hgood, if_neg (by decide)]
    refine .op _ _ _ _ _ ?_
    dsimp only [WProg.bind]
    rw [if_pos hpw]
    exact .done _
  · simp only [wOp, hw, hrow, Option.map_some]

/-- C75 is violated: there are a user and a valid login form with their e-mail address and password that does not log them in,
although nothing else happens and the database works. Another user has the same address. -/
theorem C75_refuted : ∃ (w : WStore) (row : UserRow) (req : WebRequest) (tr : List WEv), row ∈ w.db.users ∧ req.route = .login ∧
    req.method = py! "POST" ∧ req.cookie = none ∧ GoodForm (fun _ => true) req.form ∧ req.form.email = row.email ∧
    req.form.password = row.password ∧
    WExec (app toyEnv (exHooks toyEnv) (fun _ => true) req) tr (.ok ⟨.page .invalidCredentials, none⟩) ∧
    RunsAlone toyEnv w tr w := by
  obtain ⟨tr, h1, h2⟩ := undisturbed_wrong (env := toyEnv) (table := exHooks toyEnv) (emailOk := fun _ => true)
    (users := [exUser, { exUser with id := py! "u2", password := py! "battery staple" }])
    (w := ⟨{ exStore with users := [exUser, { exUser with id := py! "u2", password := py! "battery staple" }] }, []⟩) rfl
    (req := webLogin [] (py! "battery staple")) (row := exUser) rfl rfl rfl (form_valid_iff.mp (by decide +kernel)) rfl
    (by decide) (exDraw 0)
  exact ⟨_, { exUser with id := py! "u2", password := py! "battery staple" }, _, tr, by simp, rfl, rfl, rfl,
    form_valid_iff.mp (by decide +kernel), rfl, rfl, h1, h2⟩

/-- Logins with the right and with a wrong password. -/
example : webServed ((webSim (fun _ => webLogin [] (py! "correct horse")) (exTurn 0 4 2)).2.2 0) =
      some ⟨.response 303 [(py! "location", webSite ++ py! "/")] [], some webCookie⟩ ∧
    webServed ((webSim (fun _ => webLogin [] (py! "battery staple")) (exTurn 0 4 2)).2.2 0) =
      some ⟨.page .invalidCredentials, none⟩ := by decide +kernel

end Psion.Props
