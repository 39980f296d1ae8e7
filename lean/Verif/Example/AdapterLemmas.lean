import Verif.Example.Adapter
import Verif.OAuth.SystemLemmas

/-!
# The example application: lemmas about histories
-/

namespace Psion.Example

open Psion Spec

theorem textList_some {l : List Val} {ws : List PyStr} (h : textList l = some ws) : Val.list l = strList ws := by
  induction l generalizing ws with
  | nil => cases h; rfl
  | cons v l ih =>
    cases v with
    | str s =>
      simp only [textList, Option.map_eq_some_iff] at h
      obtain ⟨ws', h', rfl⟩ := h
      have := ih h'
      unfold strList at this ⊢
      rw [List.map_cons, ← Val.list.inj this]
    | _ => cases h

theorem textList_strs (ws : List PyStr) : textList (ws.map .str) = some ws := by
  induction ws with
  | nil => rfl
  | cons s l ih => simp only [List.map_cons, textList, ih, Option.map_some]

/-- What `save_authorization_code` does to the codes. -/
theorem saveCode_cases (s : Store) (d : Draw) (code : PyStr) (data : Dict PyStr Val) (client : Client) (user : User) :
    (saveCode s d code data client user).1 = s ∧ (∃ e, (saveCode s d code data client user).2 = .error (.py e)) ∨
      (saveCode s d code data client user).2 = .ok () ∧ Dict.get s.codes code = none ∧ ∃ ac, StoredAs ac data client user ∧
        ac.expiration = d.now + 86400 * 1000000 ∧
        (∃ n, ac.nonce = some n ∧ Dict.get data (py! "nonce") = some (.str n)) ∧
        (saveCode s d code data client user).1 = { s with codes := (code, ac) :: s.codes } := by
  unfold saveCode
  split
  · rename_i uri scopes challenge method nonce h1 h2 h3 h4 h5
    split
    · exact Or.inl ⟨rfl, _, rfl⟩
    · rename_i ws hws
      split
      · rename_i hc
        refine Or.inr ⟨rfl, hc.2.2.2.2.1, _, ⟨rfl, rfl, h1, ?_, h3, h4⟩, rfl, ⟨nonce, rfl, h5⟩, rfl⟩
        rw [h2, textList_some hws]
      · exact Or.inl ⟨rfl, _, rfl⟩
  · exact Or.inl ⟨rfl, _, rfl⟩
  · exact Or.inl ⟨rfl, _, rfl⟩

/-- What `create_refresh_token` does. -/
theorem createRefresh_cases (s : Store) (d : Draw) (client : Client) (user : Option User) (scopes : List PyStr) :
    (createRefresh s d client user scopes).1 = s ∧ ((∃ e, (createRefresh s d client user scopes).2 = .error (.py e)) ∨
        ∃ u r, user = some u ∧ r ∈ s.refresh ∧ r.clientId = client.clientId ∧ r.userId = u.userId ∧
          (createRefresh s d client user scopes).2 = .ok r.token) ∨
      ∃ u token, user = some u ∧ (∀ r ∈ s.refresh, ¬ (r.clientId = client.clientId ∧ r.userId = u.userId)) ∧
        (∀ r ∈ s.refresh, r.token ≠ token) ∧
        (createRefresh s d client user scopes).2 = .ok token ∧ (createRefresh s d client user scopes).1 =
          { s with refresh := ⟨token, client.clientId, u.userId, scopes, d.now + 14 * 86400 * 1000000⟩ :: s.refresh } := by
  unfold createRefresh
  split
  · exact Or.inl ⟨rfl, Or.inl ⟨_, rfl⟩⟩
  · rename_i u
    split
    · rename_i r hr
      have h1 := List.find?_some hr
      simp only [decide_eq_true_eq] at h1
      exact Or.inl ⟨rfl, Or.inr ⟨u, r, rfl, List.mem_of_find?_eq_some hr, h1.1, h1.2, rfl⟩⟩
    · rename_i hr
      split
      · exact Or.inl ⟨rfl, Or.inl ⟨_, rfl⟩⟩
      · rename_i token ht
        split
        · rename_i hc
          refine Or.inr ⟨u, token, rfl, ?_, ?_, rfl, rfl⟩
          · intro r hm
            have := List.find?_eq_none.mp hr r hm
            simpa using this
          · intro r hm
            have := hc.1
            simp only [Store.findRefresh, Option.isNone_iff_eq_none, List.find?_eq_none] at this
            simpa using this r hm
        · exact Or.inl ⟨rfl, Or.inl ⟨_, rfl⟩⟩

/-- Codes only appear by `save_authorization_code`. -/
theorem step_codes {env : OEnv} {s s' : Store} {ev : Ev} (h : ExStep env s ev s') {k : PyStr} {ac : AuthCode}
    (hm : (k, ac) ∈ s'.codes) : (k, ac) ∈ s.codes ∨ ∃ data c u, ev.op = .saveCode k data c u ∧ StoredAs ac data c u := by
  obtain ⟨d, h⟩ := h
  have key : (k, ac) ∈ (exOp env d s ev.op).1.codes →
      (k, ac) ∈ s.codes ∨ ∃ data c u, ev.op = .saveCode k data c u ∧ StoredAs ac data c u := by
    intro hm
    obtain ⟨o, ans⟩ := ev
    cases o with
    | saveCode code data c u =>
      rcases saveCode_cases s d code data c u with ⟨hs, -⟩ | ⟨-, -, ac', hst, -, -, hs⟩
      · exact Or.inl (by rw [← hs]; exact hm)
      · have hm : (k, ac) ∈ (saveCode s d code data c u).1.codes := hm
        rw [hs] at hm
        rcases List.mem_cons.mp hm with hm | hm
        · cases hm
          exact Or.inr ⟨data, c, u, rfl, hst⟩
        · exact Or.inl hm
    | deleteCode v =>
      cases v with
      | str code => exact Or.inl (List.mem_filter.mp hm).1
      | _ => exact Or.inl hm
    | createRefresh c u scopes =>
      have hm : (k, ac) ∈ (createRefresh s d c u scopes).1.codes := hm
      rcases createRefresh_cases s d c u scopes with ⟨hs, -⟩ | ⟨_, _, -, -, -, -, hs⟩ <;>
        (rw [hs] at hm; exact Or.inl hm)
    | getUserinfo u scopes =>
      left
      change (k, ac) ∈ (match s.findUser u.userId with
        | none => (s, (dbError : ORes (Dict PyStr Val)))
        | some x => (s, .ok (userinfo x scopes))).1.codes at hm
      split at hm <;> exact hm
    | _ => exact Or.inl hm
  rcases h with h | ⟨-, rfl | rfl⟩
  · exact key (by rw [h]; exact hm)
  · exact Or.inl hm
  · exact key hm

/-- The call returned the token, or its answer was lost. -/
def Created (ans : ORes PyStr) (token : PyStr) : Prop := ans = .ok token ∨ ∃ n, ans = .error (.py (.ext n))

/-- Refresh tokens only appear by `create_refresh_token`. -/
theorem step_refresh {env : OEnv} {s s' : Store} {ev : Ev} (h : ExStep env s ev s') {r : RefreshTok}
    (hm : r ∈ s'.refresh) : r ∈ s.refresh ∨ ∃ c u ans, ev = ⟨.createRefresh c (some u) r.scopes, ans⟩ ∧
      Created ans r.token ∧ r.clientId = c.clientId ∧ r.userId = u.userId := by
  obtain ⟨d, h⟩ := h
  have key : r ∈ (exOp env d s ev.op).1.refresh → r ∈ s.refresh ∨ ∃ c u, ev.op = .createRefresh c (some u) r.scopes ∧
      (createRefresh s d c (some u) r.scopes).2 = .ok r.token ∧ r.clientId = c.clientId ∧ r.userId = u.userId := by
    intro hm
    obtain ⟨o, ans⟩ := ev
    cases o with
    | saveCode code data c u =>
      have hm : r ∈ (saveCode s d code data c u).1.refresh := hm
      rcases saveCode_cases s d code data c u with ⟨hs, -⟩ | ⟨-, -, ac', hst, -, -, hs⟩ <;>
        (rw [hs] at hm; exact Or.inl hm)
    | deleteCode v => cases v <;> exact Or.inl hm
    | createRefresh c u scopes =>
      have hm : r ∈ (createRefresh s d c u scopes).1.refresh := hm
      rcases createRefresh_cases s d c u scopes with ⟨hs, -⟩ | ⟨u', token, rfl, -, -, ha, hs⟩
      · rw [hs] at hm
        exact Or.inl hm
      · rw [hs] at hm
        rcases List.mem_cons.mp hm with rfl | hm
        · exact Or.inr ⟨c, u', rfl, ha, rfl, rfl⟩
        · exact Or.inl hm
    | revoke c t hint => exact Or.inl (List.mem_filter.mp hm).1
    | getUserinfo u scopes =>
      left
      change r ∈ (match s.findUser u.userId with
        | none => (s, (dbError : ORes (Dict PyStr Val)))
        | some x => (s, .ok (userinfo x scopes))).1.refresh at hm
      split at hm <;> exact hm
    | _ => exact Or.inl hm
  obtain ⟨o, ans⟩ := ev
  dsimp only at h key
  rcases h with h | ⟨⟨n, hn⟩, rfl | rfl⟩
  · rcases key (by rw [h]; exact hm) with hm | ⟨c, u, rfl, h1, h2⟩
    · exact Or.inl hm
    · refine Or.inr ⟨c, u, ans, rfl, Or.inl ?_, h2⟩
      rw [← h1]
      exact (congrArg Prod.snd h).symm
  · exact Or.inl hm
  · rcases key hm with hm | ⟨c, u, rfl, h1, h2⟩
    · exact Or.inl hm
    · exact Or.inr ⟨c, u, ans, rfl, Or.inr ⟨n, hn⟩, h2⟩

theorem run_codes {env : OEnv} {s s' : Store} {h : List Step} (hr : ExRun env s h s') {k : PyStr} {ac : AuthCode}
    (hm : (k, ac) ∈ s'.codes) : (k, ac) ∈ s.codes ∨
      ∃ j data c u ans, (j, ⟨.saveCode k data c u, ans⟩) ∈ h ∧ StoredAs ac data c u := by
  induction hr with
  | nil s => exact Or.inl hm
  | step s s1 s2 i ev h hs hr ih =>
    rcases ih hm with hm | ⟨j, data, c, u, ans, h1, h2⟩
    · rcases step_codes hs hm with hm | ⟨data, c, u, he, h2⟩
      · exact Or.inl hm
      · obtain ⟨o, ans⟩ := ev
        dsimp only at he
        subst he
        exact Or.inr ⟨i, data, c, u, ans, List.mem_cons_self, h2⟩
    · exact Or.inr ⟨j, data, c, u, ans, List.mem_cons_of_mem _ h1, h2⟩
  | outside s s1 s2 h ho hr ih =>
    rcases ih hm with hm | h'
    · exact Or.inl (ho.codes.mem hm)
    · exact Or.inr h'

theorem run_refresh {env : OEnv} {s s' : Store} {h : List Step} (hr : ExRun env s h s') {r : RefreshTok}
    (hm : r ∈ s'.refresh) : r ∈ s.refresh ∨
      ∃ j c u ans, (j, ⟨.createRefresh c (some u) r.scopes, ans⟩) ∈ h ∧ Created ans r.token ∧
        r.clientId = c.clientId ∧ r.userId = u.userId := by
  induction hr with
  | nil s => exact Or.inl hm
  | step s s1 s2 i ev h hs hr ih =>
    rcases ih hm with hm | ⟨j, c, u, ans, h1, h2⟩
    · rcases step_refresh hs hm with hm | ⟨c, u, ans, rfl, h2⟩
      · exact Or.inl hm
      · exact Or.inr ⟨i, c, u, ans, List.mem_cons_self, h2⟩
    · exact Or.inr ⟨j, c, u, ans, List.mem_cons_of_mem _ h1, h2⟩
  | outside s s1 s2 h ho hr ih =>
    rcases ih hm with hm | h'
    · exact Or.inl (ho.refresh.mem hm)
    · exact Or.inr h'

/-- A run can be cut anywhere. -/
theorem run_split {env : OEnv} {s s' : Store} {a b : List Step} (hr : ExRun env s (a ++ b) s') :
    ∃ m, ExRun env s a m ∧ ExRun env m b s' := by
  generalize hab : a ++ b = h at hr
  induction hr generalizing a with
  | nil s =>
    obtain ⟨rfl, rfl⟩ := List.append_eq_nil_iff.mp hab
    exact ⟨s, .nil s, .nil s⟩
  | step s s1 s2 i ev h hs hr ih =>
    cases a with
    | nil =>
      dsimp only [List.nil_append] at hab
      subst hab
      exact ⟨s, .nil s, .step s s1 s2 i ev h hs hr⟩
    | cons x a =>
      obtain ⟨rfl, hab'⟩ := List.cons.inj hab
      obtain ⟨m, h1, h2⟩ := ih hab'
      exact ⟨m, .step s s1 m i ev a hs h1, h2⟩
  | outside s s1 s2 h ho hr ih =>
    obtain ⟨m, h1, h2⟩ := ih hab
    exact ⟨m, .outside s s1 m a ho h1, h2⟩

/-- The state in which an event of a run takes place. -/
theorem run_at {env : OEnv} {s s' : Store} {a b : List Step} {i : Nat} {ev : Ev}
    (hr : ExRun env s (a ++ (i, ev) :: b) s') :
    ∃ m m', ExRun env s a m ∧ ExStep env m ev m' ∧ ExRun env m' b s' := by
  obtain ⟨m, h1, h2⟩ := run_split hr
  generalize hb : (i, ev) :: b = h at h2
  induction h2 generalizing a with
  | nil s => cases hb
  | step m m' s2 j ev' h hs hr' ih =>
    obtain ⟨h0, rfl⟩ := List.cons.inj hb
    cases h0
    exact ⟨m, m', h1, hs, hr'⟩
  | outside m m1 s2 h ho hr' ih =>
    subst hb
    have h1' : ExRun env s a m1 := by
      clear hr' ih hr
      induction h1 with
      | nil s => exact .outside _ _ _ _ ho (.nil _)
      | step s s1 s2 j ev' h hs hr ih => exact .step _ _ _ _ _ _ hs (ih ho)
      | outside s s1 s2 h ho' hr ih => exact .outside _ _ _ _ ho' (ih ho)
    have hr2 : ExRun env s (a ++ (i, ev) :: b) s2 := by
      clear ih hr h1
      induction h1' with
      | nil s => exact hr'
      | step s s1 s2' j ev' h hs hr ih => exact .step _ _ _ _ _ _ hs (ih ho hr')
      | outside s s1 s2' h ho' hr ih => exact .outside _ _ _ _ ho' (ih ho hr')
    exact ih hr2 h1' rfl

theorem step_getCode {env : OEnv} {s s' : Store} {v : Val} {ac : AuthCode}
    (h : ExStep env s ⟨.getCode v, .ok (some ac)⟩ s') : ∃ k, v = .str k ∧ Dict.get s.codes k = some ac := by
  obtain ⟨d, h | ⟨⟨n, hn⟩, -⟩⟩ := h
  · have h2 : s.findCode v = some ac := Except.ok.inj (congrArg Prod.snd h)
    unfold Store.findCode at h2
    split at h2
    · exact ⟨_, rfl, h2⟩
    · cases h2
  · cases hn

theorem step_getRefresh {env : OEnv} {s s' : Store} {t : PyStr} {rt : RefreshTok}
    (h : ExStep env s ⟨.getRefresh t, .ok (some rt)⟩ s') : rt ∈ s.refresh ∧ rt.token = t := by
  obtain ⟨d, h | ⟨⟨n, hn⟩, -⟩⟩ := h
  · have h2 : s.findRefresh t = some rt := Except.ok.inj (congrArg Prod.snd h)
    exact ⟨List.mem_of_find?_eq_some h2, by simpa using List.find?_some h2⟩
  · cases hn

theorem step_findUser {env : OEnv} {s s' : Store} {id : PyStr} {u : User}
    (h : ExStep env s ⟨.findUser id, .ok (some u)⟩ s') : u.userId = id := by
  obtain ⟨d, h | ⟨⟨n, hn⟩, -⟩⟩ := h
  · have h2 : (s.findUser id).map UserRow.user = some u := Except.ok.inj (congrArg Prod.snd h)
    obtain ⟨x, hx, rfl⟩ := Option.map_eq_some_iff.mp h2
    have h3 := List.find?_some hx
    exact of_decide_eq_true h3
  · cases hn

theorem step_findClient {env : OEnv} {s s' : Store} {id : PyStr} {c : Client}
    (h : ExStep env s ⟨.findClient id, .ok (some c)⟩ s') : ∃ row ∈ s.clients, c = row.client ∧ row.id = id := by
  obtain ⟨d, h | ⟨⟨n, hn⟩, -⟩⟩ := h
  · have h2 : (s.findClient id).map ClientRow.client = some c := Except.ok.inj (congrArg Prod.snd h)
    obtain ⟨x, hx, rfl⟩ := Option.map_eq_some_iff.mp h2
    exact ⟨x, List.mem_of_find?_eq_some hx, rfl, by simpa using List.find?_some hx⟩
  · cases hn

/-- `get_allowed_scopes` of the example: the scopes of the client that are in the given list, in the order of the client. -/
theorem filterIn_strList (ws l : List PyStr) : filterIn (strList ws) l = .ok (l.filter (fun s => decide (s ∈ ws))) := by
  have hin : ∀ s, containsText s (strList ws) = .ok (decide (s ∈ ws)) := by
    intro s
    have : Val.inList (.str s) (ws.map .str) = decide (s ∈ ws) := by
      induction ws with
      | nil => simp [Val.inList]
      | cons w ws ih =>
        simp only [List.map_cons, Val.inList, List.any_cons] at ih ⊢
        rw [ih]
        simp only [Val.pyEq, List.mem_cons, Bool.decide_or]
        congr 1
        rw [Bool.eq_iff_iff]
        simp [eq_comm]
    simp only [containsText, strList, this]
  induction l with
  | nil => rfl
  | cons s l ih =>
    simp only [filterIn, hin, ih, List.filter_cons]

theorem narrows_row (row : ClientRow) : Narrows row.client := by
  intro base scopes h s hs
  have h' : liftRes (filterIn (strList base) row.scopes) = .ok scopes := h
  rw [filterIn_strList] at h'
  cases h'
  simpa using (List.mem_filter.mp hs).2

/-- Whatever the example application does, its adapter only returns what was stored. -/
theorem run_honest {env : OEnv} {s s' : Store} {h : List Step} (hr : ExRun env s h s') (h0 : s.codes = [])
    (h1 : s.refresh = []) : Honest h where
  code := by
    rintro pre i v ac post rfl
    obtain ⟨m, m', ha, hs, -⟩ := run_at hr
    obtain ⟨k, rfl, hk⟩ := step_getCode hs
    rcases run_codes ha (Dict.mem_of_get hk) with hm | ⟨j, data, c, u, ans, hm, hst⟩
    · rw [h0] at hm; cases hm
    · exact ⟨j, k, data, c, u, ans, hm, rfl, hst⟩
  refresh := by
    rintro pre i t rt post rfl
    obtain ⟨m, m', ha, hs, -⟩ := run_at hr
    rcases run_refresh ha (step_getRefresh hs).1 with hm | ⟨j, c, u, ans, hm, -, hc, hu⟩
    · rw [h1] at hm; cases hm
    · exact ⟨j, c, u, ans, hm, hc, hu⟩
  user := by
    intro i id u hm
    obtain ⟨a, b, rfl⟩ := List.append_of_mem hm
    obtain ⟨m, m', -, hs, -⟩ := run_at hr
    exact step_findUser hs
  narrows := by
    intro i id c hm
    obtain ⟨a, b, rfl⟩ := List.append_of_mem hm
    obtain ⟨m, m', -, hs, -⟩ := run_at hr
    obtain ⟨row, -, rfl, -⟩ := step_findClient hs
    exact narrows_row row

/-- The example adapter deletes codes for good. -/
theorem run_deletes {env : OEnv} {s s' : Store} {h : List Step} (hr : ExRun env s h s') : Deletes h := by
  rintro a i v b j ac c rfl
  rw [List.append_assoc, List.cons_append] at hr
  obtain ⟨m, m', -, hs, hr1⟩ := run_at hr
  obtain ⟨n, n', hr2, hg, -⟩ := run_at hr1
  obtain ⟨k, rfl, hk⟩ := step_getCode hg
  rcases run_codes hr2 (Dict.mem_of_get hk) with hm | ⟨l, data, cl, u, ans, hm, -⟩
  · obtain ⟨d, hs | ⟨⟨n, hn⟩, -⟩⟩ := hs
    · have h1 : deleteCode m (.str k) = m' := congrArg Prod.fst hs
      rw [← h1] at hm
      have := (List.mem_filter.mp hm).2
      simp at this
    · cases hn
  · exact ⟨l, k, data, cl, u, ans, rfl, hm⟩

/-- The primary key of the table of refresh tokens, and that there is one per client and user. -/
structure Store.Unique (s : Store) : Prop where
  token : ∀ r ∈ s.refresh, ∀ r' ∈ s.refresh, r.token = r'.token → r = r'
  pair : ∀ r ∈ s.refresh, ∀ r' ∈ s.refresh, r.clientId = r'.clientId → r.userId = r'.userId → r = r'

theorem unique_mono {s s' : Store} (hu : s.Unique) (h : ∀ r ∈ s'.refresh, r ∈ s.refresh) : s'.Unique :=
  ⟨fun r hr r' hr' => hu.token r (h r hr) r' (h r' hr'), fun r hr r' hr' => hu.pair r (h r hr) r' (h r' hr')⟩

theorem unique_op {env : OEnv} {s : Store} (d : Draw) (o : Op) (hu : s.Unique) : (exOp env d s o).1.Unique := by
  have hsub : (∀ c u sc, o ≠ .createRefresh c u sc) → ∀ r ∈ (exOp env d s o).1.refresh, r ∈ s.refresh := by
    intro hn r hr
    have hstep : ExStep env s ⟨o, (exOp env d s o).2⟩ (exOp env d s o).1 := ⟨d, Or.inl rfl⟩
    rcases step_refresh hstep hr with hr | ⟨c, u, ans, he, -⟩
    · exact hr
    · exact absurd (congrArg Ev.op he) (hn c (some u) _)
  cases o with
  | createRefresh c u scopes =>
    show (createRefresh s d c u scopes).1.Unique
    rcases createRefresh_cases s d c u scopes with ⟨hs, -⟩ | ⟨x, token, rfl, h1, h2, -, hs⟩
    · rw [hs]; exact hu
    · rw [hs]
      constructor
      · intro r hr r' hr' heq
        rcases List.mem_cons.mp hr with rfl | hr <;> rcases List.mem_cons.mp hr' with rfl | hr'
        · rfl
        · exact absurd heq.symm (h2 r' hr')
        · exact absurd heq (h2 r hr)
        · exact hu.token r hr r' hr' heq
      · intro r hr r' hr' e1 e2
        rcases List.mem_cons.mp hr with rfl | hr <;> rcases List.mem_cons.mp hr' with rfl | hr'
        · rfl
        · exact absurd ⟨e1.symm, e2.symm⟩ (h1 r' hr')
        · exact absurd ⟨e1, e2⟩ (h1 r hr)
        · exact hu.pair r hr r' hr' e1 e2
  | _ => exact unique_mono hu (hsub nofun)

theorem run_unique {env : OEnv} {s s' : Store} {h : List Step} (hr : ExRun env s h s') (hu : s.Unique) : s'.Unique := by
  induction hr with
  | nil s => exact hu
  | step s s1 s2 i ev h hs hr ih =>
    apply ih
    obtain ⟨d, hs | ⟨-, rfl | rfl⟩⟩ := hs
    · have := unique_op (env := env) d ev.op hu
      rw [hs] at this
      exact this
    · exact hu
    · exact unique_op d ev.op hu
  | outside s s1 s2 h ho hr ih => exact ih (unique_mono hu fun r hr => ho.refresh.mem hr)

theorem findRefresh_some {s : Store} (hu : s.Unique) {r : RefreshTok} (hr : r ∈ s.refresh) : s.findRefresh r.token = some r := by
  cases h : s.findRefresh r.token with
  | none =>
    have := List.find?_eq_none.mp h r hr
    simp at this
  | some r' =>
    have h2 : r'.token = r.token := by simpa using List.find?_some h
    rw [hu.token r' (List.mem_of_find?_eq_some h) r hr h2]

end Psion.Example
