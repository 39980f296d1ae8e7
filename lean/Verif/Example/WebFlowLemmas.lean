import Verif.Example.StackRun
import Verif.Props.WebAnswer
import Verif.Spec.WebFlow

/-!
# Lemmas for a whole flow through the example application
-/

namespace Psion.Props

open Psion Spec Example

variable {env : OEnv} {emailOk : PyStr → Bool}

theorem operates_cons {w w' : WStore} {d : Draw} {ev : WEv} {l : List (Draw × WEv)} (h : Operates env w (asSteps ((d, ev) :: l)) w') :
    ∃ w1, wOp env d w ev.op = (w1, ev.ans) ∧ NewWeb w d ev.op ∧ Operates env w1 (asSteps l) w' := by
  unfold asSteps at h
  rw [List.map_cons] at h
  cases h with
  | step _ w1 _ _ _ _ _ h1 h2 h3 => exact ⟨w1, h1, h2, h3⟩

theorem operates_lib {l : List (Draw × WEv)} : ∀ {w w' : WStore}, Operates env w (asSteps l) w' →
    (∀ ev ∈ l.map Prod.snd, ∃ o, ev.op = .lib o) →
    Alone env w.db (libDraws l) w'.db ∧ events (libDraws l) = libOf (l.map Prod.snd) ∧ w'.sessions = w.sessions := by
  induction l with
  | nil => intro w w' h _; cases h; exact ⟨.nil _, rfl, rfl⟩
  | cons p l ih =>
    intro w w' h hlib
    obtain ⟨d, o, ans⟩ := p
    obtain ⟨o', ho⟩ := hlib ⟨o, ans⟩ (by simp)
    obtain ⟨w1, h1, h2, h3⟩ := operates_cons h
    obtain ⟨i1, i2, i3⟩ := ih h3 (fun ev hev => hlib ev (List.mem_cons_of_mem _ hev))
    cases ho
    have e1 : w1 = { w with db := (exOp env d w.db o').1 } := (congrArg Prod.fst h1).symm
    have e2 : (exOp env d w.db o').2 = ans := (congrArg Prod.snd h1 :)
    subst e1
    refine ⟨?_, ?_, i3⟩
    · exact .step _ (exOp env d w.db o').1 _ d ⟨o', ans⟩ _ (Prod.ext rfl e2) (h2.lib o' rfl) i1
    · show _ :: events (libDraws l) = _ :: libOf (l.map Prod.snd)
      rw [i2]

theorem libDraws_mem {l : List (Draw × WEv)} {p : Draw × Ev} (h : p ∈ libDraws l) : ∃ q ∈ l, q.1 = p.1 := by
  obtain ⟨⟨d, o, ans⟩, h1, h2⟩ := List.mem_filterMap.mp h
  cases o <;> cases h2
  exact ⟨_, h1, rfl⟩

theorem libDraws_prompt {l : List (Draw × WEv)} (h : PromptFor 0 (asSteps l)) : Prompt (libDraws l) := by
  unfold PromptFor asSteps at h
  unfold Prompt
  refine List.Pairwise.sublist ?_ h
  rw [List.filter_map, List.filter_eq_self.mpr (by simp), List.flatMap_map]
  clear h
  induction l with
  | nil => exact List.Sublist.refl _
  | cons p l ih =>
    obtain ⟨d, o, ans⟩ := p
    cases o with
    | lib o => exact .cons_cons _ (.cons_cons _ ih)
    | _ => exact .cons _ (.cons _ ih)

theorem visit_history {w w' : WStore} {req : WebRequest} {l : List (Draw × WEv)} {out : ORes Served}
    (h : Visit env emailOk w req l w' out) :
    ofWeb 0 (stepsOf (asSteps l)) = l.map Prod.snd ∧
      WHistory env (exHooks env) emailOk (fun _ => req) (stepsOf (asSteps l)) := by
  have e : ∀ i, ofWeb i (stepsOf (asSteps l)) = if i = 0 then l.map Prod.snd else [] := by
    intro i
    unfold ofWeb stepsOf asSteps
    rw [List.map_map]
    have := h.runs
    clear h this
    induction l with
    | nil => cases i <;> rfl
    | cons p l ih =>
      rw [List.map_cons, List.filterMap_cons]
      by_cases hi : i = 0
      · subst hi
        rw [if_pos rfl] at ih ⊢
        simp only [Function.comp, if_true]
        exact congrArg (p.2 :: ·) ih
      · rw [if_neg hi] at ih ⊢
        simp only [Function.comp]
        rw [if_neg (fun h => hi h.symm)]
        exact ih
  refine ⟨by rw [e 0, if_pos rfl], ?_⟩
  intro i
  rw [e i]
  split
  · exact wexec_partial h.runs
  · exact .here _

/-- A visit to the token endpoint: the library is called with the request as it arrived; if it answers with status 200, this answer
is sent. -/
theorem visit_token {w w' : WStore} {req : WebRequest} {l : List (Draw × WEv)} {out : ORes Served}
    (h : Visit env emailOk w req l w' out) (hc : TokenCall req) :
    ∃ r lib, ArrivesAs req none r ∧ Alone env w.db (libDraws l) w'.db ∧
      Exec (exProvider.token env (exHooks env) r) (events (libDraws l)) lib ∧
      ∀ resp, lib = .ok resp → resp.status = 200 → ∃ reply, PassedOn resp reply ∧ out = .ok ⟨reply, none⟩ := by
  have hx := h.runs
  unfold app at hx
  rw [hc.cookie] at hx
  obtain ⟨hlib, r, lib, hr, hends, hend⟩ := view_library (.inr ⟨.inl hc.route, hc.method⟩) hc.host hx
  obtain ⟨ha, he, -⟩ := operates_lib h.alone hlib
  rw [hc.route] at hends
  rw [he]
  have harr := createRequest_faithful hr hc.names
  cases hends with
  | token _ _ response hx =>
    refine ⟨r, _, harr, ha, hx, ?_⟩
    rintro resp ⟨⟩ hst
    rcases hend with ⟨_, h, _⟩ | ⟨h, _⟩ | ⟨r', h, ⟨reply, h1, h2⟩ | ⟨hn, -⟩⟩
    · cases h
    · cases h
    · cases h
      exact ⟨reply, h1, h2⟩
    · cases h
      refine absurd ?_ hn
      rcases token_response (exHooks_benign env) hx with ⟨token, -, hj⟩ | ⟨x, -, hj⟩
      · exact sendable_json hj sendable_noStore
      · have := (jsonResponse_status hj).1
        rw [hst] at this
        cases this
  | noToken _ _ e hx => exact ⟨r, _, harr, ha, hx, nofun⟩

/-- A visit to the authorization endpoint with the cookie of a session. -/
theorem visit_authorize {w w' : WStore} {req : WebRequest} {l : List (Draw × WEv)} {out : ORes Served} {urow : UserRow} {sid : PyStr}
    (h : Visit env emailOk w req l w' out) (hf : Framed req) (hroute : req.route = .authorize) (hm : req.method = py! "GET")
    (hck : req.cookie = some ⟨urow.id, sid⟩) (hsid : (sid, urow.id) ∈ w.sessions) (hu : w.db.findUser urow.id = some urow) :
    ∃ r lib, ArrivesAs req (some urow.user) r ∧ Alone env w.db (libDraws l) w'.db ∧
      Exec (exProvider.authorize env (exHooks env) r) (events (libDraws l)) lib ∧
      ∀ resp, lib = .ok resp → (∃ sv, out = .ok sv) → ∃ reply, PassedOn resp reply ∧ out = .ok ⟨reply, none⟩ := by
  have hx := h.runs
  have hal := h.alone
  unfold app at hx
  rw [hck] at hx
  dsimp only at hx
  cases l with
  | nil => cases hx
  | cons p l =>
    obtain ⟨d, o, ans⟩ := p
    obtain ⟨w1, h1, -, h3⟩ := operates_cons hal
    rw [List.map_cons] at hx
    cases hx with
    | op _ _ _ _ _ hx =>
      simp only [wOp, if_pos hsid, hu, Option.map_some, Prod.mk.injEq] at h1
      obtain ⟨rfl, rfl⟩ := h1
      obtain ⟨hlib, r, lib, hr, hends, hend⟩ := view_library (user := some urow.user) (.inl ⟨hroute, hm, nofun⟩) hf.host hx
      obtain ⟨ha, he, -⟩ := operates_lib h3 hlib
      have hd : libDraws ((d, ⟨.session sid urow.id, .ok (some (some urow.user))⟩) :: l) = libDraws l := rfl
      rw [hd, he]
      rw [hroute] at hends
      have harr := createRequest_faithful hr hf.names
      cases hends with
      | authorized _ _ response hx =>
        refine ⟨r, _, harr, ha, hx, ?_⟩
        rintro resp ⟨⟩ ⟨sv, hsv⟩
        rcases hend with ⟨_, h, _⟩ | ⟨h, _⟩ | ⟨r', h, ⟨reply, h1, h2⟩ | ⟨-, e, h2⟩⟩
        · cases h
        · cases h
        · cases h
          exact ⟨reply, h1, h2⟩
        · rw [h2] at hsv
          cases hsv
      | notAuthorized _ _ e hx => exact ⟨r, _, harr, ha, hx, nofun⟩

/-- A login: the database is as before, except perhaps for a new session. -/
theorem visit_login {w w' : WStore} {req : WebRequest} {l : List (Draw × WEv)} {out : ORes Served} {row : UserRow} {query : PyStr}
    (h : Visit env emailOk w req l w' out) (hl : LogsIn emailOk req row query)
    (hrow : w.db.users.find? (fun u => decide (u.email = row.email)) = some row) :
    w'.db = w.db ∧ ∃ sid loc, (sid, row.id) ∈ w'.sessions ∧
      out = .ok ⟨.response 303 [(py! "location", loc)] [], some ⟨row.id, sid⟩⟩ := by
  have hv := form_valid_iff.mpr hl.form
  obtain ⟨loc, hloc⟩ := quotePlus_ok locSafe (encodable_afterLogin hl.plain.1 hl.plain.2)
  have fin : ∀ {w1 : WStore} {l : List (Draw × WEv)} {sid : PyStr}, w1.db = w.db → (sid, row.id) ∈ w1.sessions →
      WExec (loggedIn req row.id sid) (l.map Prod.snd) out → Operates env w1 (asSteps l) w' →
      w'.db = w.db ∧ ∃ sid loc, (sid, row.id) ∈ w'.sessions ∧
        out = .ok ⟨.response 303 [(py! "location", loc)] [], some ⟨row.id, sid⟩⟩ := by
    intro w1 l sid hdb hs h hu
    unfold loggedIn redirectTo at h
    rw [hloc] at h
    obtain ⟨hnil, rfl⟩ := wexec_done h
    rw [List.map_eq_nil_iff] at hnil
    subst hnil
    cases hu
    exact ⟨hdb, sid, loc, hs, rfl⟩
  have hx := h.runs
  have hu := h.alone
  unfold app at hx
  rw [hl.cookie] at hx
  dsimp only at hx
  unfold view at hx
  rw [hl.route] at hx
  dsimp only at hx
  rw [if_neg (by unfold isGet; rw [hl.method]; decide), if_pos (by unfold isPost; rw [hl.method]; decide)] at hx
  unfold loginPost at hx
  dsimp only at hx
  rw [hv, if_neg (by decide), hl.email] at hx
  rcases l with _ | ⟨⟨d, o, ans⟩, l⟩
  · cases hx
  rw [List.map_cons] at hx
  cases hx with
  | op _ _ r t _ hx =>
    obtain ⟨w1, he1, -, hu1⟩ := operates_cons hu
    simp only [wOp, hrow, Option.map_some, Prod.mk.injEq] at he1
    obtain ⟨rfl, rfl⟩ := he1
    dsimp only [WProg.bind] at hx
    rw [if_neg (by rw [hl.password]; exact fun h => h rfl)] at hx
    rcases l with _ | ⟨⟨d, o, ans⟩, l⟩
    · cases hx
    rw [List.map_cons] at hx
    cases hx with
    | op _ _ r t _ hx =>
      obtain ⟨w1, he2, -, hu2⟩ := operates_cons hu1
      simp only [wOp, Prod.mk.injEq] at he2
      obtain ⟨rfl, rfl⟩ := he2
      cases hf : w.sessions.find? (fun s => decide (s.2 = row.id)) with
      | some s =>
        rw [hf] at hx
        have hs2 := List.find?_some hf
        have hs2 : s.2 = row.id := of_decide_eq_true hs2
        exact fin rfl (hs2 ▸ List.mem_of_find?_eq_some hf) hx hu2
      | none =>
        rw [hf] at hx
        rcases l with _ | ⟨⟨d, o, ans⟩, l⟩
        · cases hx
        rw [List.map_cons] at hx
        cases hx with
        | op _ _ r t _ hx =>
          obtain ⟨w1, he3, -, hu3⟩ := operates_cons hu2
          simp only [wOp, Prod.mk.injEq] at he3
          obtain ⟨rfl, rfl⟩ := he3
          obtain ⟨sid, hsid, hlen, -⟩ := C10_secret_token d.choices32.val (by
            intro h
            have := d.choices32.property
            rw [h] at this
            cases this)
          rw [d.choices32.property] at hlen
          dsimp only [WProg.bind] at hx
          rw [hsid] at hx
          rcases l with _ | ⟨⟨d, o, ans⟩, l⟩
          · cases hx
          rw [List.map_cons] at hx
          cases hx with
          | op _ _ r t _ hx =>
            obtain ⟨w1, he4, hnew, hu4⟩ := operates_cons hu3
            have hfu : (w.db.findUser row.id).isSome := by
              unfold Store.findUser
              rw [List.find?_isSome]
              exact ⟨row, List.mem_of_find?_eq_some hrow, by simp⟩
            simp only [wOp] at he4
            rw [if_pos ⟨by omega, hnew.session sid row.id rfl, hfu⟩] at he4
            simp only [Prod.mk.injEq] at he4
            obtain ⟨rfl, rfl⟩ := he4
            exact fin (by rfl) List.mem_cons_self hx hu4

end Psion.Props
