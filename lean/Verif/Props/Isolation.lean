import Verif.Spec.Isolation
import Verif.Props.Web
import Verif.Props.Revoke

/-!
# Property C130: whose data a request changes
-/

namespace Psion.Props

open Psion Spec Example

variable {env : OEnv} {table : Hooks} {emailOk : PyStr → Bool} {reqs : Nat → WebRequest}

/-! ## What the database has answered -/

/-- The state in which an event of the library took place. -/
theorem lib_at {w w' : WStore} {h : List WStep} {i : Nat} {o : Op} {ans : ORes o.Ans} (hrun : WRun env w h w')
    (hm : (i, (⟨.lib o, ans⟩ : WEv)) ∈ h) : ∃ m m', ExStep env m ⟨o, ans⟩ m' := by
  obtain ⟨a, b, rfl⟩ := List.append_of_mem hm
  obtain ⟨m, m', -, he, -⟩ := wrun_at hrun
  rcases weffect_db he with ⟨o', ans', h1, h2⟩ | ⟨h1, -⟩
  · cases h1
    exact ⟨_, _, h2⟩
  · exact absurd rfl (h1 o)

theorem client_at {w w' : WStore} {h : List WStep} {i : Nat} {id : PyStr} {c : Client} (hrun : WRun env w h w')
    (hm : (i, (⟨.lib (.findClient id), .ok (some c)⟩ : WEv)) ∈ h) : c.clientId = id := by
  obtain ⟨m, m', hs⟩ := lib_at hrun hm
  obtain ⟨row, -, rfl, h1⟩ := step_findClient hs
  exact h1

theorem user_at {w w' : WStore} {h : List WStep} {i : Nat} {id : PyStr} {u : User} (hrun : WRun env w h w')
    (hm : (i, (⟨.lib (.findUser id), .ok (some u)⟩ : WEv)) ∈ h) : u.userId = id := by
  obtain ⟨m, m', hs⟩ := lib_at hrun hm
  exact step_findUser hs

theorem session_at {w w' : WStore} {h : List WStep} {i : Nat} {sid uid : PyStr} {u : User} (hrun : WRun env w h w')
    (hm : (i, (⟨.session sid uid, .ok (some (some u))⟩ : WEv)) ∈ h) : u = ⟨uid⟩ := by
  obtain ⟨a, b, rfl⟩ := List.append_of_mem hm
  obtain ⟨m, m', -, ⟨d, he⟩, -⟩ := wrun_at hrun
  have he := Except.ok.inj (congrArg Prod.snd (he.resolve_right (by rintro ⟨⟨n, hn⟩, -⟩; cases hn)))
  split at he
  · obtain ⟨row, hrow, rfl⟩ := Option.map_eq_some_iff.mp (Option.some.inj he)
    have hid := List.find?_some hrow
    have hid : row.id = uid := of_decide_eq_true hid
    unfold UserRow.user
    rw [hid]
  · cases he

theorem user_sent {w w' : WStore} {h : List WStep} {i : Nat} {sid uid : PyStr} {u : User} (hrun : WRun env w h w')
    (hc : (reqs i).cookie = some ⟨uid, sid⟩) (hm : (i, (⟨.session sid uid, .ok (some (some u))⟩ : WEv)) ∈ h) :
    UserSent reqs h i uid := by
  have := session_at hrun hm
  subst this
  exact ⟨sid, hc, hm⟩

theorem client_sent {w w' : WStore} {h : List WStep} {i : Nat} {q : Request} {user : Option User} {methods : Option (List PyStr)}
    {c : Client} (hrun : WRun env w h w') (hq : createRequest (reqs i) user = .ok q)
    (ha : Authenticated q methods (ofRequest i (libSteps h)) c) : ClientSent reqs h i q c.clientId := by
  obtain ⟨m, id, h1, h2, h3, -⟩ := ha
  have h1 := mem_libSteps.mp (mem_ofRequest.mp h1)
  obtain rfl := client_at hrun h1
  exact ⟨user, c, m, hq, h1, rfl, h2, h3⟩

/-! ## C130 -/

theorem confined_same {own : Prop} {h : List WStep} {i : Nat} (w : WStore) : Confined own reqs h i w w :=
  ⟨rfl, rfl, fun _ h => Or.inl h, fun _ h => Or.inl h, fun _ h => Or.inl h, fun _ h => Or.inl h, fun _ h => Or.inl h,
    fun _ h => Or.inl h⟩

/-- The effect of an operation, whatever became of its answer. -/
theorem weffect_store {w w' : WStore} {ev : WEv} (he : WEffect env w ev w') : w' = w ∨ ∃ d, w' = (wOp env d w ev.op).1 := by
  obtain ⟨d, he | ⟨-, he | he⟩⟩ := he
  · exact Or.inr ⟨d, (congrArg Prod.fst he).symm⟩
  · exact Or.inl he
  · exact Or.inr ⟨d, he⟩

/-- C130, as far as it holds: whatever requests arrive at the example application, in whatever order their operations take place,
wherever they fail: every single operation of a request changes only what `Confined` says. Missing is that a code is only removed
by the client that it was made for (`C130_refuted`). -/
theorem C130_partial (hb : Benign table) (w0 w w' : WStore) (pre post : List WStep) (i : Nat) (ev : WEv)
    (hist : WHistory env table emailOk reqs (pre ++ (i, ev) :: post)) (hrun : WRun env w0 pre w) (he : WEffect env w ev w') :
    Confined False reqs pre i w w' := by
  rcases weffect_store he with rfl | ⟨d, rfl⟩
  · exact confined_same _
  clear he
  obtain ⟨o, ans⟩ := ev
  have happ := hist i
  rw [ofWeb_split] at happ
  have happ := app_op happ
  cases o with
  | lib o =>
    obtain ⟨calls, hist', hcalls⟩ := whistory_calls hist
    have hsplit : libSteps (pre ++ (i, ⟨.lib o, ans⟩) :: post) = libSteps pre ++ (i, ⟨o, ans⟩) :: libSteps post := by
      rw [libSteps_append]; rfl
    rw [hsplit] at hist'
    have hlc := hcalls i (by
      rw [hsplit, ofRequest_split]
      exact List.append_ne_nil_of_right_ne_nil _ (List.cons_ne_nil _ _))
    have hdid := history_did hist'
    cases o with
    | saveCode code data c u =>
      show Confined False reqs pre i w { w with db := (saveCode w.db d code data c u).1 }
      obtain ⟨p, q, hcall, hau⟩ := save_authorization hb hist'
      rw [hcall] at hlc
      obtain ⟨rfl, hroute, -, ck, x, t, hck, ht, hq, -⟩ := hlc
      have hx : x = u := by
        have h1 := hau.user
        rw [request_init hq] at h1
        exact Option.some.inj h1
      subst hx
      obtain ⟨id, hid, hf⟩ := hau.client
      have hf := mem_libSteps.mp (mem_ofRequest.mp hf)
      have hses : (i, (⟨.session ck.sessionId ck.userId, .ok (some (some x))⟩ : WEv)) ∈ pre := by
        obtain ⟨a, b, rfl, -, -⟩ := first_event rfl ht hf
        simp
      have hu := session_at hrun hses
      have hus : UserSent reqs pre i ck.userId := user_sent hrun hck hses
      have hcid := client_at hrun hf
      rcases saveCode_cases w.db d code data c x with ⟨h1, -⟩ | ⟨-, -, ac, hst, -, -, h1⟩
      · rw [h1]
        exact confined_same _
      · rw [h1]
        refine { confined_same (own := False) w with codeNew := ?_, codeGone := ?_ }
        · intro kv hkv
          rcases List.mem_cons.mp hkv with rfl | hkv
          · right
            have h2 : ac.userId = ck.userId := by rw [hst.user, hu]
            have h3 : ac.clientId = id := by rw [hst.client, hcid]
            refine ⟨hroute, by rw [h2]; exact hus, q, ?_, ?_⟩
            · rw [h2, ← hu]
              exact hq
            · rw [h3]
              exact hid
          · exact Or.inl hkv
        · intro kv hkv
          exact Or.inl (List.mem_cons_of_mem _ hkv)
    | deleteCode v =>
      show Confined False reqs pre i w { w with db := Example.deleteCode w.db v }
      cases hcall : calls i with
      | token p q =>
        rw [hcall] at hlc hdid
        obtain ⟨code, c, hc, rfl, -, -, -, hau⟩ := C38_other_operations env table hb p q _ _ _ hdid
        obtain ⟨-, hroute, -, user, hq⟩ := hlc
        have hcs := client_sent hrun hq hau
        refine { confined_same (own := False) w with codeNew := ?_, codeGone := ?_ }
        · intro kv hkv
          exact Or.inl (List.mem_filter.mp hkv).1
        · intro kv hkv
          by_cases hk : kv.1 = code
          · exact Or.inr ⟨hroute, q, _, hcs, by rw [hc, hk], False.elim⟩
          · exact Or.inl (List.mem_filter.mpr ⟨hkv, decide_eq_true hk⟩)
      | authorize p q =>
        rw [hcall] at hdid
        exact (authorize_op hb hdid).elim
      | consent p q =>
        rw [hcall] at hlc
        exact hlc.elim
      | revoke p q =>
        rw [hcall] at hdid
        exact (wpp_partial hdid (wpp_revoke env p q) answers_true rfl : False).elim
    | createRefresh c u scopes =>
      show Confined False reqs pre i w { w with db := (createRefresh w.db d c u scopes).1 }
      obtain ⟨p, q, hcall, g, -, -, -, hau, hj⟩ := create_justified hb hist' (Or.inr rfl)
      rw [hcall] at hlc
      obtain ⟨-, hroute, -, user, hq⟩ := hlc
      have hcs := client_sent hrun hq hau
      rcases createRefresh_cases w.db d c u scopes with ⟨h1, -⟩ | ⟨u', token, rfl, -, -, -, h1⟩
      · rw [h1]
        exact confined_same _
      · rw [h1]
        refine { confined_same (own := False) w with refreshNew := ?_, refreshGone := ?_ }
        · intro r hr
          rcases List.mem_cons.mp hr with rfl | hr
          · refine Or.inr ⟨hroute, q, hcs, ?_⟩
            cases g with
            | authorizationCode =>
              obtain ⟨u2, hu2, code, ac, uri, verifier, now, h2, h3, h4, -, -, -, -, -, -, -, h5, -⟩ := hj
              cases hu2
              have h5 := user_at hrun (mem_libSteps.mp (mem_ofRequest.mp h5))
              exact Or.inl ⟨code, ac, h2, mem_libSteps.mp (mem_ofRequest.mp h3), h4, h5.symm⟩
            | clientCredentials => cases hj.1
            | refreshToken =>
              obtain ⟨u2, hu2, token', rt, now, base, h2, h3, h4, -, -, h5, -⟩ := hj
              cases hu2
              have h5 := user_at hrun (mem_libSteps.mp (mem_ofRequest.mp h5))
              exact Or.inr ⟨token', rt, h2, mem_libSteps.mp (mem_ofRequest.mp h3), h4, h5.symm⟩
          · exact Or.inl hr
        · intro r hr
          exact Or.inl (List.mem_cons_of_mem _ hr)
    | revoke c t hint =>
      show Confined False reqs pre i w { w with db := revoke w.db c t }
      cases hcall : calls i with
      | revoke p q =>
        rw [hcall] at hlc hdid
        obtain ⟨-, hroute, -, user, hq⟩ := hlc
        rcases C53_operations env p q _ _ _ hdid with ⟨id, ho⟩ | ⟨c', t', hint', ho, hau, ht, -⟩
        · cases ho
        · cases ho
          have hcs := client_sent hrun hq hau
          refine { confined_same (own := False) w with refreshNew := ?_, refreshGone := ?_ }
          · intro r hr
            exact Or.inl (List.mem_filter.mp hr).1
          · intro r hr
            by_cases hk : r.token = t ∧ r.clientId = c.clientId
            · exact Or.inr (Or.inl ⟨hroute, q, by rw [hk.2]; exact hcs, by rw [ht, hk.1]⟩)
            · exact Or.inl (List.mem_filter.mpr ⟨hr, decide_eq_true hk⟩)
      | token p q =>
        rw [hcall] at hdid
        exact (C38_other_operations env table hb p q _ _ _ hdid).elim
      | authorize p q =>
        rw [hcall] at hdid
        exact (authorize_op hb hdid).elim
      | consent p q =>
        rw [hcall] at hlc
        exact hlc.elim
    | getUserinfo user scopes =>
      have : (wOp env d w (.lib (.getUserinfo user scopes))).1 = w := by
        simp only [wOp, exOp]
        split <;> rfl
      rw [this]
      exact confined_same w
    | _ => exact confined_same w
  | saveSession sid uid =>
    obtain ⟨h1, h2, h3, -⟩ := happ
    have h3 := mem_ofWeb.mp h3
    simp only [wOp]
    split
    · refine { confined_same (own := False) w with sessionNew := ?_, sessionGone := ?_ }
      · intro s hs
        rcases List.mem_cons.mp hs with rfl | hs
        · exact Or.inr ⟨h1, h2, h3⟩
        · exact Or.inl hs
      · intro s hs
        exact Or.inl (List.mem_cons_of_mem _ hs)
    · exact confined_same w
  | deleteRefresh uid =>
    obtain ⟨h1, sid, u, h2, h3⟩ := happ
    have h4 : UserSent reqs pre i uid := user_sent hrun h2 (mem_ofWeb.mp h3)
    refine { confined_same (own := False) w with refreshNew := ?_, refreshGone := ?_ }
    · intro r hr
      exact Or.inl (List.mem_filter.mp hr).1
    · intro r hr
      by_cases hk : r.userId = uid
      · exact Or.inr (Or.inr ⟨h1, by rw [hk]; exact h4⟩)
      · exact Or.inl (List.mem_filter.mpr ⟨hr, decide_eq_true hk⟩)
  | deleteSessions uid =>
    obtain ⟨h1, sid, u, h2, h3⟩ := happ
    have h4 : UserSent reqs pre i uid := user_sent hrun h2 (mem_ofWeb.mp h3)
    refine { confined_same (own := False) w with sessionNew := ?_, sessionGone := ?_ }
    · intro s hs
      exact Or.inl (List.mem_filter.mp hs).1
    · intro s hs
      by_cases hk : s.2 = uid
      · exact Or.inr ⟨h1, by rw [hk]; exact h4⟩
      · exact Or.inl (List.mem_filter.mpr ⟨hs, decide_eq_true hk⟩)
  | _ => exact confined_same w

/-! ## The counterexample -/

/-- Another client, whose secret is `t4`. -/
def isoClient : ClientRow := { exClient with id := py! "c2", secret := some (py! "t4"), redirectUris := [py! "https://d/cb"] }

/-- A code of the first client. -/
def isoCode : PyStr × AuthCode :=
  (py! "abc", ⟨py! "c1", py! "u1", py! "https://c/cb", [py! "openid"], toyVerifier, py! "plain", none, 9000000⟩)

/-- A database with two clients and this code. -/
def isoStore : WStore := ⟨{ exStore with clients := [exClient, isoClient], codes := [isoCode] }, []⟩

/-- A request of the other client with the code. -/
def isoReq : WebRequest :=
  { webGet .token (py! "/connect/token") [] none with
    method := py! "POST"
    headers := [(py! "authorization", py! "Basic YzI6dDQ=")]
    body := by! "grant_type=authorization_code&code=abc" }

/-- What is left of a program after its first operation. -/
def afterFirst {α : Type} (w : WStore) : WProg α → WProg α
  | .op o k => k (wOp toyEnv (exDraw 0) w o).2
  | p => p

/-- Does the program look for this client next? -/
def looksFor {α : Type} (id : PyStr) : WProg α → Bool
  | .op (.lib (.findClient x)) _ => decide (x = id)
  | _ => false

/-- Does the program remove this code next? -/
def removesNext {α : Type} (code : PyStr) : WProg α → Bool
  | .op (.lib (.deleteCode (.str x))) _ => decide (x = code)
  | _ => false

theorem looksFor_op {α : Type} {id : PyStr} {p : WProg α} (h : looksFor id p = true) : ∃ k, p = .op (.lib (.findClient id)) k := by
  unfold looksFor at h
  split at h
  · cases of_decide_eq_true h
    exact ⟨_, rfl⟩
  · cases h

theorem removesNext_op {α : Type} {code : PyStr} {p : WProg α} (h : removesNext code p = true) :
    ∃ k, p = .op (.lib (.deleteCode (.str code))) k := by
  unfold removesNext at h
  split at h
  · cases of_decide_eq_true h
    exact ⟨_, rfl⟩
  · cases h

/-- The request finds its client, and then removes the code. -/
theorem iso_history : WHistory toyEnv (exHooks toyEnv) (fun _ => true) (fun _ => isoReq)
    ([(0, ⟨.lib (.findClient (py! "c2")), (wOp toyEnv (exDraw 0) isoStore (.lib (.findClient (py! "c2")))).2⟩)] ++
      [(0, ⟨.lib (.deleteCode (.str (py! "abc"))), .ok ()⟩)]) := by
  obtain ⟨k, hk⟩ := looksFor_op (id := py! "c2") (p := app toyEnv (exHooks toyEnv) (fun _ => true) isoReq) (by decide +kernel)
  have h2 : removesNext (py! "abc") (afterFirst isoStore (app toyEnv (exHooks toyEnv) (fun _ => true) isoReq)) = true := by
    decide +kernel
  rw [hk] at h2
  obtain ⟨k', hk'⟩ := removesNext_op h2
  intro i
  by_cases hi : i = 0
  · subst hi
    show WPartial (app toyEnv (exHooks toyEnv) (fun _ => true) isoReq) _
    rw [hk]
    refine .op _ k _ _ ?_
    dsimp only [afterFirst] at hk'
    rw [hk']
    exact .op _ k' _ _ (.here _)
  · have : ofWeb i ([(0, (⟨.lib (.findClient (py! "c2")),
        (wOp toyEnv (exDraw 0) isoStore (.lib (.findClient (py! "c2")))).2⟩ : WEv))] ++
        [(0, ⟨.lib (.deleteCode (.str (py! "abc"))), .ok ()⟩)]) = [] := by
      simp [ofWeb, Ne.symm hi]
    rw [this]
    exact .here _

theorem iso_run : WRun toyEnv isoStore
    [(0, ⟨.lib (.findClient (py! "c2")), (wOp toyEnv (exDraw 0) isoStore (.lib (.findClient (py! "c2")))).2⟩)] isoStore :=
  .step _ isoStore _ _ _ _ ⟨exDraw 0, Or.inl rfl⟩ (.nil _)

/-- C130 is false for codes: a client that has got hold of a code of another client, or guesses it, removes it by presenting it,
though it gets nothing for it; then the client that the code was made for cannot use it any more. -/
theorem C130_refuted : ¬ ∀ (env : OEnv) (table : Hooks) (emailOk : PyStr → Bool) (reqs : Nat → WebRequest) (_ : Benign table)
    (w0 w w' : WStore) (pre post : List WStep) (i : Nat) (ev : WEv)
    (_ : WHistory env table emailOk reqs (pre ++ (i, ev) :: post)) (_ : WRun env w0 pre w) (_ : WEffect env w ev w'),
    Confined True reqs pre i w w' := by
  intro H
  have h := H toyEnv (exHooks toyEnv) (fun _ => true) (fun _ => isoReq) (exHooks_benign _) isoStore isoStore
    { isoStore with db := Example.deleteCode isoStore.db (.str (py! "abc")) } _ [] 0 ⟨.lib (.deleteCode (.str (py! "abc"))), .ok ()⟩
    iso_history iso_run ⟨exDraw 0, Or.inl rfl⟩
  rcases h.codeGone isoCode (List.mem_singleton.mpr rfl) with h | ⟨-, q, id, ⟨-, c, -, -, hm, -⟩, -, hid⟩
  · have : isoCode ∉ (Example.deleteCode isoStore.db (.str (py! "abc"))).codes := by
      have : (Example.deleteCode isoStore.db (.str (py! "abc"))).codes = [] := by decide +kernel
      rw [this]
      nofun
    exact this h
  · have hid : id = py! "c1" := hid trivial
    subst hid
    have h1 := congrArg (fun s : WStep => s.2.op) (List.mem_singleton.mp hm)
    simp only [WOp.lib.injEq, Op.findClient.injEq] at h1
    exact absurd h1 (by decide)

/-- There are requests that change something, and the cases are needed: the login of a user, an authorization and an exchange. -/
example : (webSim webReqs (exTurn 0 4 2)).2.1.sessions.length = 1 ∧
    (webSim webReqs (exTurn 0 4 2 ++ exTurn 1 4 0)).2.1.db.codes.length = 1 ∧
    (webSim webReqs (exTurn 0 4 2 ++ exTurn 1 4 0 ++ exTurn 3 13 1)).2.1.db.codes.length = 0 ∧
    (webSim webReqs (exTurn 0 4 2 ++ exTurn 1 4 0 ++ exTurn 3 13 1)).2.1.db.refresh.length = 1 ∧
    (webSim webReqs (exTurn 0 4 2 ++ exTurn 1 4 0 ++ exTurn 3 13 1 ++ exTurn 2 4 0)).2.1.db.refresh.length = 0 ∧
    (webSim webReqs (exTurn 0 4 2 ++ exTurn 1 4 0 ++ exTurn 3 13 1 ++ exTurn 2 4 0)).2.1.sessions.length = 0 := by
  decide +kernel

/-- The hypotheses hold for the operation of the counterexample, and it does change the database. -/
example : Confined False (fun _ => isoReq)
      [(0, ⟨.lib (.findClient (py! "c2")), (wOp toyEnv (exDraw 0) isoStore (.lib (.findClient (py! "c2")))).2⟩)] 0 isoStore
      { isoStore with db := Example.deleteCode isoStore.db (.str (py! "abc")) } ∧
    isoStore.db.codes.length = 1 ∧ (Example.deleteCode isoStore.db (.str (py! "abc"))).codes.length = 0 :=
  ⟨C130_partial (exHooks_benign toyEnv) isoStore isoStore _ _ [] 0 ⟨.lib (.deleteCode (.str (py! "abc"))), .ok ()⟩ iso_history iso_run
    ⟨exDraw 0, Or.inl rfl⟩, rfl, by decide +kernel⟩

/-- What the property excludes: a request without a login form does not create sessions. -/
example (h : List WStep) (s : PyStr × PyStr) : ¬ Confined False (fun _ => isoReq) h 0 ⟨exStore, []⟩ ⟨exStore, [s]⟩ := by
  intro H
  rcases H.sessionNew s (List.mem_singleton.mpr rfl) with h | h
  · cases h
  · exact absurd h.route (by decide)

end Psion.Props
