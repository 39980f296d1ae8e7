import Verif.Spec.Busy
import Verif.Props.Lasting

/-!
# Property C142: legitimate requests are served while others are processed
-/

namespace Psion.Props

open Psion Spec Example

variable {env : OEnv} {emailOk : PyStr → Bool} {reqs : Nat → WebRequest} {i : Nat}

/-! ## The moment of an operation -/

theorem busy_only {w w' : WStore} {l : List (Draw × WStep)} (h : Busy env i w l w') : OnlyRequests env w (stepsOf l) w' := by
  induction h with
  | nil => exact .nil _
  | own w w1 w2 d ev l hop _ _ ih => exact .step _ _ _ _ _ _ ⟨d, Or.inl hop⟩ ih
  | other w w1 w2 d j ev l _ he _ ih => exact .step _ _ _ _ _ _ he ih

theorem busy_split {w w' : WStore} {l pre post : List (Draw × WStep)} (h : Busy env i w l w') (hl : l = pre ++ post) :
    ∃ m, Busy env i w pre m ∧ Busy env i m post w' := by
  induction h generalizing pre with
  | nil =>
    obtain ⟨rfl, rfl⟩ := List.append_eq_nil_iff.mp hl.symm
    exact ⟨_, .nil _, .nil _⟩
  | own w w1 w2 d ev l hop hn ht ih =>
    cases pre with
    | nil => exact ⟨w, .nil _, (show (d, i, ev) :: l = post from hl) ▸ Busy.own _ _ _ _ _ _ hop hn ht⟩
    | cons x pre =>
      obtain ⟨rfl, hl'⟩ := List.cons.inj hl
      obtain ⟨m, h1, h2⟩ := ih hl'
      exact ⟨m, .own _ _ _ _ _ _ hop hn h1, h2⟩
  | other w w1 w2 d j ev l hj he ht ih =>
    cases pre with
    | nil => exact ⟨w, .nil _, (show (d, j, ev) :: l = post from hl) ▸ Busy.other _ _ _ _ _ _ _ hj he ht⟩
    | cons x pre =>
      obtain ⟨rfl, hl'⟩ := List.cons.inj hl
      obtain ⟨m, h1, h2⟩ := ih hl'
      exact ⟨m, .other _ _ _ _ _ _ _ hj he h1, h2⟩

theorem busy_own {w w' : WStore} {d : Draw} {ev : WEv} {post : List (Draw × WStep)} (h : Busy env i w ((d, i, ev) :: post) w') :
    ∃ m, wOp env d w ev.op = (m, ev.ans) ∧ NewWeb w d ev.op ∧ Busy env i m post w' := by
  cases h with
  | own _ m _ _ _ _ h1 h2 h3 => exact ⟨m, h1, h2, h3⟩
  | other _ _ _ _ _ _ _ hj => exact absurd rfl hj

theorem busy_snoc {w m w' : WStore} {d : Draw} {ev : WEv} {pre : List (Draw × WStep)} (h : Busy env i w pre m)
    (hop : wOp env d m ev.op = (w', ev.ans)) (hn : NewWeb m d ev.op) : Busy env i w (pre ++ [(d, i, ev)]) w' := by
  induction h with
  | nil => exact .own _ _ _ _ _ _ hop hn (.nil _)
  | own w w1 w2 d' ev' l h1 h2 _ ih => exact .own _ _ _ _ _ _ h1 h2 (ih hop hn)
  | other w w1 w2 d' j ev' l h1 h2 _ ih => exact .other _ _ _ _ _ _ _ h1 h2 (ih hop hn)

/-- An operation of the request was performed at this moment. -/
structure Moment (env : OEnv) (i : Nat) (w w' : WStore) (l : List (Draw × WStep)) (ev : WEv) (d : Draw)
    (pre post : List (Draw × WStep)) (m m' : WStore) : Prop where
  split : l = pre ++ (d, i, ev) :: post
  before : Busy env i w pre m
  op : wOp env d m ev.op = (m', ev.ans)
  new : NewWeb m d ev.op
  after : Busy env i m' post w'
  sound : SoundFor w.db m.db
  keyed : KeyedStore m.db
  clock : d.stamp ≤ d.stamp2 ∧ d.stamp2 < d.stamp + 3600

theorem moment {w w' : WStore} {l : List (Draw × WStep)} {out : ORes Served} (h : Amid env emailOk w w' reqs i l out)
    (hs : SoundStore w.db) (hk : KeyedStore w.db) {ev : WEv} (hev : ev ∈ ofWeb i (stepsOf l)) :
    ∃ d pre post m m', Moment env i w w' l ev d pre post m m' := by
  obtain ⟨d, hm⟩ := mem_stepsOf (mem_ofWeb.mp hev)
  obtain ⟨pre, post, rfl⟩ := List.append_of_mem hm
  obtain ⟨m, h1, h2⟩ := busy_split h.run rfl
  obtain ⟨m', h3, h4, h5⟩ := busy_own h2
  obtain ⟨g1, g2⟩ := stays_run (busy_only h1) (m0 := w.db) (by
    rintro ⟨j, ev'⟩ hp
    refine app_good (h.tame j) (h.history j) ev' (mem_ofWeb.mpr ?_)
    obtain ⟨d', hd⟩ := mem_stepsOf hp
    exact List.mem_map.mpr ⟨_, List.mem_append_left _ hd, rfl⟩) ⟨hs, rfl, rfl⟩ hk
  exact ⟨d, pre, post, m, m', rfl, h1, h3, h4, h5, g1, g2, prompt_draw h.prompt hm⟩

theorem lib_op {o : Op} {r : ORes o.Ans} {d : Draw} {m m' : WStore} (h : wOp env d m (.lib o) = (m', r)) :
    exOp env d m.db o = (m'.db, r) := by
  have h1 : m' = { m with db := (exOp env d m.db o).1 } := (congrArg Prod.fst h).symm
  have h2 : (exOp env d m.db o).2 = r := congrArg Prod.snd h
  rw [h1]
  exact Prod.ext rfl h2

/-- The same for an operation of the library. -/
theorem lib_moment {w w' : WStore} {l : List (Draw × WStep)} {out : ORes Served} (h : Amid env emailOk w w' reqs i l out)
    (hs : SoundStore w.db) (hk : KeyedStore w.db) {o : Op} {r : ORes o.Ans} (hev : (⟨o, r⟩ : Ev) ∈ libOf (ofWeb i (stepsOf l))) :
    ∃ d pre post m m', Moment env i w w' l ⟨.lib o, r⟩ d pre post m m' ∧ exOp env d m.db o = (m'.db, r) := by
  obtain ⟨⟨o', r'⟩, hw, heq⟩ := List.mem_filterMap.mp hev
  cases o' <;> cases heq
  obtain ⟨d, pre, post, m, m', hm⟩ := moment h hs hk hw
  exact ⟨d, pre, post, m, m', hm, lib_op hm.op⟩

theorem amid_handled {w w' : WStore} {l : List (Draw × WStep)} {out : ORes Served} (h : Amid env emailOk w w' reqs i l out)
    (hs : SoundStore w.db) (hk : KeyedStore w.db) : ∀ ev ∈ ofWeb i (stepsOf l), Handled env w.db ev := by
  intro ev hev
  obtain ⟨d, pre, post, m, m', hm⟩ := moment h hs hk hev
  exact ⟨d, m, m', hm.sound, hm.new, hm.clock.1, hm.clock.2, hm.op⟩

theorem amid_clock {w w' : WStore} {l : List (Draw × WStep)} {out : ORes Served} (h : Amid env emailOk w w' reqs i l out)
    (hok : ∀ ev ∈ libOf (ofWeb i (stepsOf l)), ∃ a, ev.ans = .ok a) :
    ClockRuns (libOf (ofWeb i (stepsOf l))) 36000 := by
  have e : ofWeb i (stepsOf (l.filter fun p => decide (p.2.1 = i))) = ofWeb i (stepsOf l) := by
    clear hok h
    induction l with
    | nil => rfl
    | cons p l ih =>
      obtain ⟨d, j, ev⟩ := p
      by_cases hj : j = i
      · subst hj
        simp only [List.filter_cons, decide_true, if_true]
        simp only [stepsOf, ofWeb, List.map_cons, List.filterMap_cons, if_true] at ih ⊢
        rw [ih]
      · simp only [List.filter_cons, hj, decide_false]
        simp only [stepsOf, ofWeb, List.map_cons, List.filterMap_cons, hj, if_false] at ih ⊢
        exact ih
  rw [← e] at hok ⊢
  refine prompt_clock (env := env) (i := i) ?_ ?_ hok
  · have := h.prompt
    unfold PromptFor at this ⊢
    rw [List.filter_filter]
    simpa using this
  · intro d j ev hm
    obtain ⟨hm', hj⟩ := List.mem_filter.mp hm
    have hj : j = i := of_decide_eq_true hj
    subst hj
    obtain ⟨pre, post, hl⟩ := List.append_of_mem hm'
    obtain ⟨m, -, h2⟩ := busy_split h.run hl
    obtain ⟨m', h3, -⟩ := busy_own h2
    exact ⟨m, m', h3⟩

/-! ## The adapter during the request -/

section
variable {w w' : WStore} {l : List (Draw × WStep)} {out : ORes Served} {row : ClientRow} {urow : UserRow}

theorem amid_works (hl : FloatLaws env.cr.fe) (h : Amid env emailOk w w' reqs i l out) (hs : SoundStore w.db) (hk : KeyedStore w.db)
    (hc : w.db.findClient row.id = some row) (hu : w.db.findUser urow.id = some urow) {S : List PyStr → Prop}
    (hS : ∀ s, S s → ∀ x ∈ s, Encodable x) :
    Works (libOf (ofWeb i (stepsOf l))) row.id row.client (.user (some urow.user)) S := by
  have hce := (hs.plain.clients row (List.mem_of_find?_eq_some hc)).1
  have hue := (hs.plain.users urow (List.mem_of_find?_eq_some hu)).1
  refine ⟨?_, ?_, ?_⟩
  · intro r hr
    obtain ⟨d, pre, post, m, m', hm, hop⟩ := lib_moment h hs hk hr
    have : Except.ok ((m.db.findClient row.id).map ClientRow.client) = r := congrArg Prod.snd hop
    rw [← this, findClient_for hm.sound, hc]
    rfl
  · intro s r hs' hr
    obtain ⟨d, pre, post, m, m', hm, hop⟩ := lib_moment h hs hk hr
    obtain ⟨t, hx, hte⟩ := createAccess_served hl (c := row.client) (u := urow.user) hce hue (hS s hs') hm.clock.1 hm.clock.2
    have : liftRes (createAccess env d row.client (.user (some urow.user)) s) = r := congrArg Prod.snd hop
    rw [hx] at this
    exact ⟨hS s hs', t, this.symm, hte⟩
  · intro u s r hu' hs' hr
    cases hu'
    obtain ⟨d, pre, post, m, m', hm, hop⟩ := lib_moment h hs hk hr
    obtain ⟨t, rt, hx, hte, -⟩ := createRefresh_served (scopes := s) (c := row.client) (u := urow.user)
      ⟨hm.keyed.refresh, hm.sound.sound.plain.refresh⟩
      (by rw [findClient_for hm.sound]; show (w.db.findClient row.id).isSome = true; rw [hc]; rfl)
      (by rw [findUser_for hm.sound]; show (w.db.findUser urow.id).isSome = true; rw [hu]; rfl)
      (fun t => (hm.new.lib _ rfl).refresh _ _ _ t rfl)
    have : (createRefresh m.db d row.client (some urow.user) s).2 = r := congrArg Prod.snd hop
    exact ⟨t, this.symm.trans hx, hte⟩

theorem amid_user (h : Amid env emailOk w w' reqs i l out) (hs : SoundStore w.db) (hk : KeyedStore w.db)
    (hu : w.db.findUser urow.id = some urow) (r : ORes (Option User))
    (hr : (⟨.findUser urow.id, r⟩ : Ev) ∈ libOf (ofWeb i (stepsOf l))) : r = .ok (some urow.user) := by
  obtain ⟨d, pre, post, m, m', hm, hop⟩ := lib_moment h hs hk hr
  have : Except.ok ((m.db.findUser urow.id).map UserRow.user) = r := congrArg Prod.snd hop
  rw [← this, findUser_for hm.sound, hu]
  rfl

theorem amid_now (h : Amid env emailOk w w' reqs i l out) (hs : SoundStore w.db) (hk : KeyedStore w.db) {t : Int}
    (hlt : ∀ p ∈ l, p.2.1 = i → p.1.now < t) (r : ORes Int) (hr : (⟨.now, r⟩ : Ev) ∈ libOf (ofWeb i (stepsOf l))) :
    ∃ n : Int, r = .ok n ∧ n < t := by
  obtain ⟨d, pre, post, m, m', hm, hop⟩ := lib_moment h hs hk hr
  have : Except.ok d.now = r := congrArg Prod.snd hop
  exact ⟨d.now, this.symm, hlt (d, i, _) (by rw [hm.split]; exact List.mem_append_right _ List.mem_cons_self) rfl⟩

theorem amid_info (h : Amid env emailOk w w' reqs i l out) (hs : SoundStore w.db) (hk : KeyedStore w.db) {u : User} {s : List PyStr}
    {r : ORes (Dict PyStr Val)} (hr : (⟨.getUserinfo u s, r⟩ : Ev) ∈ libOf (ofWeb i (stepsOf l))) :
    (w.db.findUser u.userId = none ∧ r = dbError) ∨ ∃ x, w.db.findUser u.userId = some x ∧ r = .ok (userinfo x s) := by
  obtain ⟨d, pre, post, m, m', hm, hop⟩ := lib_moment h hs hk hr
  rw [← findUser_for hm.sound]
  simp only [exOp] at hop
  split at hop
  · rename_i hx
    exact Or.inl ⟨hx, (congrArg Prod.snd hop).symm⟩
  · rename_i x hx
    exact Or.inr ⟨x, hx, (congrArg Prod.snd hop).symm⟩

theorem amid_oidc (h : Amid env emailOk w w' reqs i l out) (hs : SoundStore w.db) (hk : KeyedStore w.db)
    (hu : w.db.findUser urow.id = some urow) (hok : ∀ ev ∈ libOf (ofWeb i (stepsOf l)), ∃ a, ev.ans = .ok a) :
    OidcWorks env.cr (libOf (ofWeb i (stepsOf l))) urow.user 36000 := by
  have hpu := hs.plain.users urow (List.mem_of_find?_eq_some hu)
  refine ⟨?_, ?_, fun r hr => hok _ hr, amid_clock h hok⟩
  · intro r hr
    obtain ⟨d, pre, post, m, m', hm, hop⟩ := lib_moment h hs hk hr
    have : Except.ok (exKey, py! "HS256") = r := congrArg Prod.snd hop
    exact ⟨_, _, this.symm, exKey_signs _⟩
  · intro s r hr
    rcases amid_info h hs hk hr with ⟨hn, -⟩ | ⟨x, hx, rfl⟩
    · rw [show urow.user.userId = urow.id from rfl, hu] at hn
      cases hn
    · rw [show urow.user.userId = urow.id from rfl, hu] at hx
      cases hx
      exact ⟨_, rfl, userinfo_usable hpu s⟩

/-- The access token of the response can be read for an hour. -/
theorem amid_reads (hl : FloatLaws env.cr.fe) (h : Amid env emailOk w w' reqs i l out) (hs : SoundStore w.db) (hk : KeyedStore w.db)
    {c : Client} {u : User} {s : List PyStr} {t : PyStr}
    (hr : (⟨.createAccess c (.user (some u)) s, .ok t⟩ : Ev) ∈ libOf (ofWeb i (stepsOf l))) :
    ∃ p ∈ l, p.2.1 = i ∧ ∀ n1 n2, p.1.stamp ≤ n1 → n1 < p.1.stamp + 3600 → p.1.stamp ≤ n2 → n2 < p.1.stamp + 3600 →
      Reads env t n1 n2 p.1.stamp c.clientId u.userId (joinWith [32] s) := by
  obtain ⟨d, pre, post, m, m', hm, hop⟩ := lib_moment h hs hk hr
  obtain ⟨sub, ⟨u', hu, rfl⟩, hreads⟩ := C65_content env hl d m.db m'.db c _ s t hop
  cases hu
  exact ⟨(d, i, _), by rw [hm.split]; exact List.mem_append_right _ List.mem_cons_self, rfl, hreads⟩

/-- The refresh token of the response is stored at some moment. -/
theorem amid_refreshed (h : Amid env emailOk w w' reqs i l out) (hs : SoundStore w.db) (hk : KeyedStore w.db)
    (hc : w.db.findClient row.id = some row) (hu : w.db.findUser urow.id = some urow) {s : List PyStr} {t : PyStr}
    (hr : (⟨.createRefresh row.client (some urow.user) s, .ok t⟩ : Ev) ∈ libOf (ofWeb i (stepsOf l))) :
    AtSomeMoment env i w l w' fun m => ∃ rt ∈ m.db.refresh, rt.token = t ∧ rt.clientId = row.id ∧ rt.userId = urow.id := by
  obtain ⟨d, pre, post, m, m', hm, hop⟩ := lib_moment h hs hk hr
  obtain ⟨t', rt, hx1, -, hx2, hx3, hx4, -⟩ := createRefresh_served (scopes := s) (c := row.client) (u := urow.user)
      ⟨hm.keyed.refresh, hm.sound.sound.plain.refresh⟩
      (by rw [findClient_for hm.sound]; show (w.db.findClient row.id).isSome = true; rw [hc]; rfl)
      (by rw [findUser_for hm.sound]; show (w.db.findUser urow.id).isSome = true; rw [hu]; rfl)
      (fun t => (hm.new.lib _ rfl).refresh _ _ _ t rfl)
  have e1 : (createRefresh m.db d row.client (some urow.user) s).2 = .ok t := congrArg Prod.snd hop
  have e2 : (createRefresh m.db d row.client (some urow.user) s).1 = m'.db := congrArg Prod.fst hop
  rw [hx1] at e1
  cases e1
  rw [e2] at hx2
  have ht : rt.token = t := by
    unfold Store.findRefresh at hx2
    have := List.find?_some hx2
    exact of_decide_eq_true this
  exact ⟨pre ++ [(d, i, _)], post, m', by rw [hm.split]; simp, busy_snoc hm.before hm.op hm.new, hm.after, rt, List.mem_of_find?_eq_some hx2, ht, hx3, hx4⟩

/-! ## What stays until the moment -/

/-- Whatever is lost until a moment, is lost by an operation that may remove it. -/
theorem lost_before (h : Amid env emailOk w w' reqs i l out) {pre post : List (Draw × WStep)} (hl : l = pre ++ post) {m : WStore}
    (hb : Busy env i w pre m) (keeps : WStore → Prop) (h0 : keeps w) :
    keeps m ∨ ∃ a j ev b n n', stepsOf l = a ++ (j, ev) :: b ∧ (j, ev) ∈ stepsOf pre ∧ WEffect env n ev n' ∧ keeps n ∧ ¬ keeps n' ∧
      Confined False reqs a j n n' := by
  rcases lost_at (busy_only hb) keeps h0 with hk | ⟨a, j, ev, b, n, n', he, h1, h2, h3, h4⟩
  · exact Or.inl hk
  · have hsteps : stepsOf l = a ++ (j, ev) :: (b ++ stepsOf post) := by
      have : stepsOf l = stepsOf pre ++ stepsOf post := by rw [hl]; exact List.map_append
      rw [this, he]
      simp
    refine Or.inr ⟨a, j, ev, _, n, n', hsteps, he ▸ List.mem_append_right _ List.mem_cons_self, h2, h3, h4, ?_⟩
    have hist := h.history
    rw [hsteps] at hist
    exact C130_partial (exHooks_benign env) w n n' a _ j ev hist (onlyRequests_run h1) h2

theorem amid_getRefresh (h : Amid env emailOk w w' reqs i l out) (hs : SoundStore w.db) (hk : KeyedStore w.db) {rt : RefreshTok}
    (hrt : rt ∈ w.db.refresh) (hnr : NotRevoked reqs (stepsOf l) rt.token rt.clientId)
    (hnl : NotLoggedOut reqs (stepsOf l) rt.userId) (r : ORes (Option RefreshTok))
    (hr : (⟨.getRefresh rt.token, r⟩ : Ev) ∈ libOf (ofWeb i (stepsOf l))) : r = .ok (some rt) := by
  obtain ⟨d, pre, post, m, m', hm, hop⟩ := lib_moment h hs hk hr
  have hkept : rt ∈ m.db.refresh := by
    rcases lost_before h hm.split hm.before (fun w => rt ∈ w.db.refresh) hrt with h1 | ⟨a, j, ev, b, n, n', he, -, -, h3, h4, hcf⟩
    · exact h1
    · rcases (hcf.refreshGone rt h3).resolve_left h4 with ⟨g1, q, g2, g3⟩ | ⟨g1, g2⟩
      · exact absurd g3 (hnr a j ev b q he g1 g2)
      · exact absurd g2 (hnl a j ev b he g1)
  have : Except.ok (m.db.findRefresh rt.token) = r := congrArg Prod.snd hop
  rw [← this]
  exact congrArg Except.ok (find_token hm.keyed.refresh hkept)

theorem amid_getCode (h : Amid env emailOk w w' reqs i l out) (hs : SoundStore w.db) (hk : KeyedStore w.db) {req : Request}
    {lib : ORes Response} (hall : ∀ ev ∈ ofWeb i (stepsOf l), ∃ o, ev.op = .lib o)
    (hx : Exec (exProvider.token env (exHooks env) req) (libOf (ofWeb i (stepsOf l))) lib) {code : PyStr} {ac : AuthCode}
    (hc : (code, ac) ∈ w.db.codes) (hnp : NobodyElsePresents reqs i (stepsOf l) code) (r : ORes (Option AuthCode))
    (hr : (⟨.getCode (.str code), r⟩ : Ev) ∈ libOf (ofWeb i (stepsOf l))) : r = .ok (some ac) := by
  obtain ⟨d, pre, post, m, m', hm, hop⟩ := lib_moment h hs hk hr
  have hsp : ofWeb i (stepsOf l) = ofWeb i (stepsOf pre) ++ ⟨.lib (.getCode (.str code)), r⟩ :: ofWeb i (stepsOf post) := by
    have : stepsOf l = stepsOf pre ++ (i, ⟨.lib (.getCode (.str code)), r⟩) :: stepsOf post := by
      rw [hm.split]; exact List.map_append
    rw [this, ofWeb_split]
  have hquiet : ∀ ev ∈ libOf (ofWeb i (stepsOf pre)), writesCodes ev.op = false := by
    obtain ⟨ops, hw, hpre⟩ := C82_token env _ (exHooks_benign env) exProvider req _ (exec_partial hx)
    have e : libOf (ofWeb i (stepsOf l)) =
        libOf (ofWeb i (stepsOf pre)) ++ ⟨.getCode (.str code), r⟩ :: libOf (ofWeb i (stepsOf post)) := by
      rw [hsp, libOf_append]; rfl
    rw [e, storeOps_append] at hpre
    have h0 := work_first (o := .getCode (.str code)) (b := storeOps (libOf (ofWeb i (stepsOf post)))) hw
      hpre (Or.inl ⟨_, rfl⟩)
    exact fun ev hev => (quiet_of_storeOps h0 ev hev).1
  have hkept : (code, ac) ∈ m.db.codes := by
    rcases lost_before h hm.split hm.before (fun w => (code, ac) ∈ w.db.codes) hc with
      h1 | ⟨a, j, ev, b, n, n', he, hmem, heff, h3, h4, hcf⟩
    · exact h1
    · exfalso
      by_cases hj : j = i
      · subst hj
        have hin := mem_ofWeb.mpr hmem
        obtain ⟨o, ho⟩ := hall ev (by rw [hsp]; exact List.mem_append_left _ hin)
        obtain ⟨o', ans⟩ := ev
        cases ho
        have hq : writesCodes o = false := hquiet ⟨o, ans⟩ (List.mem_filterMap.mpr ⟨_, hin, rfl⟩)
        apply h4
        rcases weffect_store heff with rfl | ⟨d', rfl⟩
        · exact h3
        · show (code, ac) ∈ (exOp env d' n.db o).1.codes
          rw [exOp_codes env d' n.db o hq]
          exact h3
      · obtain ⟨g1, q, id, g2, g3, -⟩ := (hcf.codeGone _ h3).resolve_left h4
        exact hnp a j ev b q id he hj g1 g2 g3
  have : Except.ok (m.db.findCode (.str code)) = r := congrArg Prod.snd hop
  rw [← this]
  show Except.ok (Dict.get m.db.codes code) = _
  rw [Dict.get_of_mem hm.keyed.codes hkept]

/-! ## The endpoints -/

/-- The request to the token endpoint. -/
theorem amid_token (h : Amid env emailOk w w' reqs i l out) (hc : TokenCall (reqs i)) :
    (∀ ev ∈ ofWeb i (stepsOf l), ∃ o, ev.op = .lib o) ∧
    ∃ r lib, ArrivesAs (reqs i) none r ∧ Exec (exProvider.token env (exHooks env) r) (libOf (ofWeb i (stepsOf l))) lib ∧
      ∀ resp, lib = .ok resp → resp.status = 200 → ∃ reply, PassedOn resp reply ∧ out = .ok ⟨reply, none⟩ := by
  have hx := h.runs
  unfold app at hx
  rw [hc.cookie] at hx
  obtain ⟨hlib, r, lib, hr, hends, hend⟩ := view_library (.inr ⟨.inl hc.route, hc.method⟩) hc.host hx
  rw [hc.route] at hends
  have harr := createRequest_faithful hr hc.names
  refine ⟨hlib, ?_⟩
  cases hends with
  | token _ _ response hx =>
    refine ⟨r, _, harr, hx, ?_⟩
    rintro resp ⟨⟩ hst
    rcases hend with ⟨_, h, _⟩ | ⟨h, _⟩ | ⟨r', h, ⟨reply, h1, h2⟩ | ⟨hn, -⟩⟩
    · cases h
    · cases h
    · cases h
      exact ⟨reply, h1, h2⟩
    · cases h
      refine absurd ?_ hn
      rcases token_response (exHooks_benign env) hx with ⟨token, -, hj⟩ | ⟨x, -, hj⟩
      · exact sendable_json hj sendable_noStore
      · have := (jsonResponse_status hj).1
        rw [hst] at this
        cases this
  | noToken _ _ e hx => exact ⟨r, _, harr, hx, nofun⟩

/-- The request to the authorization endpoint with the cookie of a session. -/
theorem amid_authorize {sid : PyStr} (h : Amid env emailOk w w' reqs i l out) (hs : SoundStore w.db) (hk : KeyedStore w.db)
    (hf : Framed (reqs i)) (hroute : (reqs i).route = .authorize) (hm : (reqs i).method = py! "GET")
    (hck : (reqs i).cookie = some ⟨urow.id, sid⟩) (hsid : (sid, urow.id) ∈ w.sessions) (hu : w.db.findUser urow.id = some urow)
    (hnl : NotLoggedOut reqs (stepsOf l) urow.id) :
    ∃ r lib, ArrivesAs (reqs i) (some urow.user) r ∧
      Exec (exProvider.authorize env (exHooks env) r) (libOf (ofWeb i (stepsOf l))) lib ∧
      ∀ resp, lib = .ok resp → (∃ sv, out = .ok sv) → ∃ reply, PassedOn resp reply ∧ out = .ok ⟨reply, none⟩ := by
  have hx := h.runs
  have hmom := fun ev (hev : ev ∈ ofWeb i (stepsOf l)) => moment h hs hk hev
  unfold app at hx
  rw [hck] at hx
  dsimp only at hx
  generalize htr : ofWeb i (stepsOf l) = tr at hx hmom ⊢
  cases hx with
  | op o _ ans tr' _ hx =>
    obtain ⟨d, pre, post, m, m', hm'⟩ := hmom _ List.mem_cons_self
    have hkept : (sid, urow.id) ∈ m.sessions := by
      rcases lost_before h hm'.split hm'.before (fun w => (sid, urow.id) ∈ w.sessions) hsid with
        h1 | ⟨a, j, ev, b, n, n', he, -, -, h3, h4, hcf⟩
      · exact h1
      · obtain ⟨g1, g2⟩ := (hcf.sessionGone _ h3).resolve_left h4
        exact absurd g2 (hnl a j ev b he g1)
    have hop := hm'.op
    have hu' : m.db.findUser urow.id = some urow := by rw [findUser_for hm'.sound, hu]
    simp only [wOp, if_pos hkept, hu', Option.map_some, Prod.mk.injEq] at hop
    obtain ⟨-, rfl⟩ := hop
    obtain ⟨hlib, r, lib, hr, hends, hend⟩ := view_library (user := some urow.user) (.inl ⟨hroute, hm, nofun⟩) hf.host hx
    have e : libOf (⟨.session sid urow.id, .ok (some (some urow.user))⟩ :: tr') = libOf tr' := rfl
    rw [e]
    rw [hroute] at hends
    have harr := createRequest_faithful hr hf.names
    cases hends with
    | authorized _ _ response hx =>
      refine ⟨r, _, harr, hx, ?_⟩
      rintro resp ⟨⟩ ⟨sv, hsv⟩
      rcases hend with ⟨_, h, _⟩ | ⟨h, _⟩ | ⟨r', h, ⟨reply, h1, h2⟩ | ⟨-, e, h2⟩⟩
      · cases h
      · cases h
      · cases h
        exact ⟨reply, h1, h2⟩
      · rw [h2] at hsv
        cases hsv
    | notAuthorized _ _ e hx => exact ⟨r, _, harr, hx, nofun⟩

theorem amid_libOk (hok : ∀ ev ∈ ofWeb i (stepsOf l), ∃ a, ev.ans = .ok a) :
    ∀ ev ∈ libOf (ofWeb i (stepsOf l)), ∃ a, ev.ans = .ok a := by
  intro ev hev
  obtain ⟨⟨o, ans⟩, hw, heq⟩ := List.mem_filterMap.mp hev
  cases o <;> cases heq
  exact hok _ hw

end

/-! ## C142 -/

/-- C142, any request: a proper request is answered, whatever others do at the same time, and even if the operations of the others
fail. -/
theorem C142_answered (hl : FloatLaws env.cr.fe) (hh : HashLengths env.he) {w w' : WStore} {l : List (Draw × WStep)}
    {out : ORes Served} (hs : SoundStore w.db) (hk : KeyedStore w.db) (hproper : Proper (reqs i))
    (h : Amid env emailOk w w' reqs i l out) : ∃ sv, out = .ok sv := by
  have hhandled := amid_handled h hs hk
  have hok := app_ops_ok hl hproper (wexec_partial h.runs) hhandled
  refine C90_performed_partial env hl hh emailOk (reqs i) _ out hproper.toAcceptable ⟨?_, ?_, ?_⟩ h.runs
  · intro ev hev
    obtain ⟨d, w1, w2, h1, -, -, -, h2⟩ := hhandled ev hev
    obtain ⟨a, ha⟩ := hok ev hev
    exact ⟨d, w1, w2, a, h1.sound.plain, h2, ha⟩
  · exact amid_clock h (amid_libOk hok)
  · intro code ac hf
    have hlib := libOf_handled hhandled _ hf
    cases code with
    | str code => exact (handled_code hlib).1
    | _ =>
      obtain ⟨d, m, m', -, -, -, -, hop⟩ := hlib
      cases congrArg Prod.snd hop

/-- The answer contains an access token for the client, the user and the scopes that can be read for an hour. -/
def GivesAccess (env : OEnv) (i : Nat) (l : List (Draw × WStep)) (row : ClientRow) (urow : UserRow) (scopes : List PyStr)
    (r : Response) (d : Dict PyStr Val) (access : PyStr) : Prop :=
  r.status = 200 ∧ JsonBody env.cr.fe r d ∧
    Dict.get d (py! "token_type") = some (.str (py! "Bearer")) ∧ Dict.get d (py! "expires_in") = some (.int 3600) ∧
    Dict.get d (py! "access_token") = some (.str access) ∧
    ∃ p ∈ l, p.2.1 = i ∧ ∀ n1 n2, p.1.stamp ≤ n1 → n1 < p.1.stamp + 3600 → p.1.stamp ≤ n2 → n2 < p.1.stamp + 3600 →
      Reads env access n1 n2 p.1.stamp row.id urow.id (joinWith [32] scopes)

/-- The answer contains a refresh token that was stored at some moment for the client and the user. -/
def GivesRefresh (env : OEnv) (i : Nat) (w : WStore) (l : List (Draw × WStep)) (w' : WStore) (row : ClientRow) (urow : UserRow)
    (d : Dict PyStr Val) : Prop :=
  ∃ t, Dict.get d (py! "refresh_token") = some (.str t) ∧
    AtSomeMoment env i w l w' fun m => ∃ rt ∈ m.db.refresh, rt.token = t ∧ rt.clientId = row.id ∧ rt.userId = urow.id

/-- C142, code: a legitimate exchange of a stored code that has not expired is served, whatever other requests do at the same time, if
nobody else presents the code. -/
theorem C142_code (hl : FloatLaws env.cr.fe) (hh : HashLengths env.he) {w w' : WStore} {l : List (Draw × WStep)} {out : ORes Served}
    (hs : SoundStore w.db) (hk : KeyedStore w.db) (row : ClientRow) (urow : UserRow) (code : PyStr) (ac : AuthCode)
    (hc : w.db.findClient row.id = some row) (hu : w.db.findUser urow.id = some urow) (hcode : (code, ac) ∈ w.db.codes)
    (hac : ac.clientId = row.id) (hau : ac.userId = urow.id) (hsc : ∀ s ∈ ac.scopes, s ∈ standardScopes)
    (htc : TokenCall (reqs i))
    (hr : ∀ r, ArrivesAs (reqs i) none r → Exchanges env r row code ac.redirectUri ac.challenge ac.challengeMethod)
    (h : Amid env emailOk w w' reqs i l out) (hnp : NobodyElsePresents reqs i (stepsOf l) code)
    (hnow : ∀ p ∈ l, p.2.1 = i → p.1.now < ac.expiration) :
    ∃ r reply d access, out = .ok ⟨reply, none⟩ ∧ PassedOn r reply ∧ GivesAccess env i l row urow ac.scopes r d access ∧
      (py! "openid" ∈ ac.scopes → ∃ tok, ∃ p ∈ l, p.2.1 = i ∧ Dict.get d (py! "id_token") = some (.str tok) ∧
        IdTokenSays env tok access row.id urow ac.scopes p.1.stamp) ∧
      (py! "refresh_token" ∈ row.grantTypes → GivesRefresh env i w l w' row urow d) := by
  obtain ⟨hall, q, lib, harr, hx, hpass⟩ := amid_token h htc
  have hr := hr q harr
  have hok := token_ops_ok hl (exec_partial hx) (libOf_handled (amid_handled h hs hk))
  obtain ⟨meth, hi⟩ := hr.client
  obtain ⟨v, hv1, hv2, hv3⟩ := hr.verifier
  have hce := (hs.plain.clients row (List.mem_of_find?_eq_some hc)).1
  have hplain : ∀ s ∈ ac.scopes, Encodable s := fun s hs => (exScopes_plain s (hsc s hs)).1
  have hw := amid_works hl h hs hk hc hu (S := fun s => s = ac.scopes) (by rintro s rfl; exact hplain)
  have ho := amid_oidc h hs hk hu hok
  have hfound := amid_getCode h hs hk hall hx hcode hnp
  have hnow' := amid_now h hs hk hnow
  have huser : ∀ r, (⟨.findUser ac.userId, r⟩ : Ev) ∈ libOf (ofWeb i (stepsOf l)) → r = .ok (some urow.user) := by
    rw [hau]
    exact amid_user h hs hk hu
  have hdel : ∀ r, (⟨.deleteCode (.str code), r⟩ : Ev) ∈ libOf (ofWeb i (stepsOf l)) → r = .ok () := by
    intro r hr
    obtain ⟨d, pre, post, m, m', -, hop⟩ := lib_moment h hs hk hr
    exact (congrArg Prod.snd hop).symm
  obtain ⟨r, d, rfl, ⟨hst, hd, access, ha, hda, hdt, hde⟩, href⟩ := C76_authorization_code env hl (exHooks env) (exHooks_benign env)
    exProvider q _ lib meth row.id row.client code ac.redirectUri v ac urow.user (by decide) hr.type hi hr.grant hw
    (hooksWork_oidc hl hh ho (encodable_ascii (by decide)) hce (hs.codes code ac hcode) (fun r hr => (hw.access _ r rfl hr).2))
    hr.code.1 hr.uri.1 hv1 ⟨hr.code.2, hr.uri.2.1, hv2⟩ hfound hac rfl hr.uri.2.2 hv3 hnow' huser hdel hx
  obtain ⟨reply, hp, rfl⟩ := hpass r rfl hst
  refine ⟨r, reply, d, access, rfl, hp, ⟨hst, hd, hdt, hde, hda, amid_reads hl h hs hk ha⟩, ?_, ?_⟩
  · intro hopen
    obtain ⟨r', d', access', tok, key, alg, now, ws, info, hrr, -, hd', -, -, hda', hid, hkey, hstamp, hinfo, hwords, hgood⟩ :=
      C81_exchange env hl hh exProvider q _ (.ok r) meth row.id row.client code ac.redirectUri v ac urow.user (by decide)
        hr.type hi hr.grant hw (encodable_ascii (by decide)) hce ho
        (by
          intro u s info hm
          rcases amid_info h hs hk hm with ⟨-, h⟩ | ⟨x, -, h⟩
          · cases h
          · cases h
            exact ⟨userinfo_wf _ _, userinfo_others _ _⟩)
        ⟨_, hopen, [], [], rfl⟩ hr.code.1 hr.uri.1 hv1 ⟨hr.code.2, hr.uri.2.1, hv2⟩ hfound hac rfl hr.uri.2.2 hv3 hnow' huser hdel hx
    cases hrr
    have : d' = d := by cases hd'.symm.trans hd; rfl
    subst this
    rw [hda] at hda'
    cases hda'
    have hws : ws = ac.scopes := (words_iff.mp hwords).symm.trans
      (words_iff.mp (words_join ac.scopes (fun s hs => (exScopes_plain s (hsc s hs)).2)))
    subst hws
    have hk' : key = exKey ∧ alg = py! "HS256" := by
      obtain ⟨d, pre, post, m, m', -, hop⟩ := lib_moment h hs hk hkey
      cases (show Except.ok (exKey, py! "HS256") = _ from congrArg Prod.snd hop)
      exact ⟨rfl, rfl⟩
    obtain ⟨rfl, rfl⟩ := hk'
    rcases amid_info h hs hk hinfo with ⟨-, h⟩ | ⟨x, hx1, h'⟩
    · cases h
    · rw [show urow.user.userId = urow.id from rfl, hu] at hx1
      cases hx1
      cases h'
      obtain ⟨dd, pre, post, m, m', hm, hop⟩ := lib_moment h hs hk hstamp
      cases (show Except.ok dd.stamp = _ from congrArg Prod.snd hop)
      exact ⟨tok, (dd, i, _), by rw [hm.split]; exact List.mem_append_right _ List.mem_cons_self, rfl, hid, idTokenSays_of_good hgood⟩
  · intro hreg
    rcases href with ⟨-, t, htm, hdt⟩ | ⟨hno, -⟩
    · exact ⟨t, hdt, amid_refreshed h hs hk hc hu htm⟩
    · exact absurd hreg hno

/-- C142, refresh token: a legitimate use of a stored refresh token that has not expired is served, whatever other requests do at the
same time, if the client does not revoke the token and the user does not log out. -/
theorem C142_refresh (hl : FloatLaws env.cr.fe) {w w' : WStore} {l : List (Draw × WStep)} {out : ORes Served}
    (hs : SoundStore w.db) (hk : KeyedStore w.db) (row : ClientRow) (urow : UserRow) (rt : RefreshTok) (ws : List PyStr)
    (hc : w.db.findClient row.id = some row) (hu : w.db.findUser urow.id = some urow)
    (hrt : rt ∈ w.db.refresh) (hac : rt.clientId = row.id) (hau : rt.userId = urow.id)
    (htc : TokenCall (reqs i)) (hr : ∀ r, ArrivesAs (reqs i) none r → Refreshes r row rt.token rt.scopes ws)
    (h : Amid env emailOk w w' reqs i l out) (hnr : NotRevoked reqs (stepsOf l) rt.token row.id)
    (hnl : NotLoggedOut reqs (stepsOf l) urow.id) (hnow : ∀ p ∈ l, p.2.1 = i → p.1.now < rt.expiration) :
    ∃ r reply d access scopes, out = .ok ⟨reply, none⟩ ∧ PassedOn r reply ∧ GivesAccess env i l row urow scopes r d access ∧
      GivesRefresh env i w l w' row urow d ∧
      (ws = [] → ∀ s, s ∈ scopes ↔ s ∈ rt.scopes ∧ s ∈ row.scopes) ∧ (ws ≠ [] → ∀ s, s ∈ scopes ↔ s ∈ ws) := by
  obtain ⟨hall, q, lib, harr, hx, hpass⟩ := amid_token h htc
  have hr := hr q harr
  obtain ⟨meth, hi⟩ := hr.client
  have hcs := (hs.plain.clients row (List.mem_of_find?_eq_some hc)).2
  have hw := amid_works hl h hs hk hc hu (S := fun l => ∀ s ∈ l, s ∈ row.scopes) (fun s hs x hx => hcs x (hs x hx))
  obtain ⟨r, d, scopes, t, rfl, ⟨hst, hd, access, ha, hda, hdt, hde⟩, htm, hdr, h1, h2⟩ := C76_refresh_token env hl (exHooks env)
    exProvider q _ lib meth row.id row.client rt.token rt urow.user row.scopes ws (by decide) hr.type hi hr.grant hw
    (row_permits row) hr.asks hr.permitted hr.token.1 hr.token.2
    (amid_getRefresh h hs hk hrt (by rw [hac]; exact hnr) (by rw [hau]; exact hnl)) hac
    (amid_now h hs hk hnow) (by rw [hau]; exact amid_user h hs hk hu) hx
  obtain ⟨reply, hp, rfl⟩ := hpass r rfl hst
  exact ⟨r, reply, d, access, scopes, rfl, hp, ⟨hst, hd, hdt, hde, hda, amid_reads hl h hs hk ha⟩,
    ⟨t, hdr, amid_refreshed h hs hk hc hu htm⟩, h1, h2⟩

theorem asks_proper {req : WebRequest} {row : ClientRow} {urow : UserRow} {uri challenge method : PyStr} {state : Option PyStr}
    {ws : List PyStr} (h : AsksForTokens req row urow uri challenge method state ws) : Proper req := by
  refine ⟨⟨h.names, h.plain, h.host, fun _ => by rw [h.get]; decide, ?_, ?_⟩, fun _ _ user r ha => (asks_arrives h ha).1⟩
  · intro hr
    rw [h.route] at hr
    cases hr
  · intro hr
    rw [h.route] at hr
    cases hr

/-- C142, session: a user who is logged in can authorize a client, whatever other requests do at the same time, if they do not log
out. The browser is sent to the client with a code, which was stored at some moment, for a day. -/
theorem C142_session (hl : FloatLaws env.cr.fe) (hh : HashLengths env.he) {w w' : WStore} {l : List (Draw × WStep)}
    {out : ORes Served} (hs : SoundStore w.db) (hk : KeyedStore w.db) (row : ClientRow) (urow : UserRow) (sid : PyStr)
    (hc : w.db.findClient row.id = some row) (hu : w.db.findUser urow.id = some urow) (hsid : (sid, urow.id) ∈ w.sessions)
    (uri challenge method : PyStr) (state : Option PyStr) (ws : List PyStr)
    (ha : AsksForTokens (reqs i) row urow uri challenge method state ws) (hck : (reqs i).cookie = some ⟨urow.id, sid⟩)
    (h : Amid env emailOk w w' reqs i l out) (hnl : NotLoggedOut reqs (stepsOf l) urow.id) :
    ∃ headers body loc code, out = .ok ⟨.response 303 headers body, none⟩ ∧ (py! "location", loc) ∈ headers ∧
      urldecode (urlQuery loc) = visible [(py! "code", some code), (py! "state", state)] ∧
      ∃ nonce, ∃ p ∈ l, p.2.1 = i ∧ AtSomeMoment env i w l w' fun m =>
        (code, (⟨row.id, urow.id, uri, ws, challenge, method, some nonce, p.1.now + 86400 * 1000000⟩ : AuthCode)) ∈ m.db.codes := by
  obtain ⟨q, lib, harr, hx, hpass⟩ := amid_authorize h hs hk ha.toFramed ha.route ha.get hck hsid hu hnl
  obtain ⟨hva, hst2, nonce, hn, hn1, hn2⟩ := ha.valid q harr
  have hund : ∀ ev ∈ libOf (ofWeb i (stepsOf l)), Undisturbed env row urow.user ev := by
    rintro ⟨o, r⟩ hev
    obtain ⟨d, pre, post, m, m', hm, hop⟩ := lib_moment h hs hk hev
    refine ⟨d, m.db, m'.db, hop, ?_, ?_, (hm.new.lib _ rfl).code⟩
    · rw [findClient_for hm.sound, hc]
    · rw [findUser_for hm.sound]
      show (w.db.findUser urow.id).isSome = true
      rw [hu]
      rfl
  obtain ⟨resp, code, data, loc, rfl, hsave, hstored, hstat, hloc, hquery⟩ := C63_partial env row urow.user q uri challenge method
    nonce ws hva hn hn1 hn2 _ _ hx hund
  obtain ⟨reply, hp, rfl⟩ := hpass resp rfl (C142_answered hl hh hs hk (asks_proper ha) h)
  obtain ⟨hds, extra, rfl, hmap, -, -⟩ := hp
  refine ⟨hds ++ extra, resp.body, loc, code, by rw [hstat], ?_, by rw [hquery ha.uri.1 ha.uri.2, hst2], nonce, ?_⟩
  · have hm : (py! "Location", some loc) ∈ resp.headers := by
      unfold location at hloc
      cases hg : Dict.get resp.headers (py! "Location") with
      | none => rw [hg] at hloc; cases hloc
      | some v =>
        rw [hg] at hloc
        cases hloc
        exact Dict.mem_of_get hg
    have hm := List.mem_map_of_mem (f := fun kv => (asciiLower kv.1, kv.2)) hm
    rw [← hmap] at hm
    obtain ⟨⟨k, v⟩, h1, h2⟩ := List.mem_map.mp hm
    have e1 : k = py! "location" := (congrArg Prod.fst h2).trans (show asciiLower (py! "Location") = _ by decide)
    have e2 : v = loc := Option.some.inj (congrArg Prod.snd h2)
    rw [← e1, ← e2]
    exact List.mem_append_left _ h1
  · obtain ⟨d, pre, post, m, m', hm, hop⟩ := lib_moment h hs hk hsave
    exact ⟨(d, i, _), by rw [hm.split]; exact List.mem_append_right _ List.mem_cons_self, rfl, pre ++ [(d, i, _)], post, m',
      by rw [hm.split]; simp, busy_snoc hm.before hm.op hm.new, hm.after, Dict.mem_of_get (hstored d m.db m'.db hop)⟩

/-! ## Concrete histories -/

/-- A simulation of requests in any interleaving. An operation of another request than `i` whose turn is marked fails, after its
effect. -/
def bsim {α : Type} (env : OEnv) (i : Nat) :
    List (Nat × Draw × Bool) → WStore → (Nat → WProg α) → List (Draw × WStep) × WStore × (Nat → WProg α)
  | [], s, ps => ([], s, ps)
  | (j, d, f) :: l, s, ps =>
    match ps j with
    | .done _ => bsim env i l s ps
    | .op o k =>
      let r := if f = true ∧ j ≠ i then .error (.py (.ext 0)) else (wOp env d s o).2
      let rest := bsim env i l (wOp env d s o).1 (fun m => if m = j then k r else ps m)
      ((d, j, ⟨o, r⟩) :: rest.1, rest.2)

/-- Are the draws of the request new? -/
def bnew {α : Type} (env : OEnv) (i : Nat) : List (Nat × Draw × Bool) → WStore → (Nat → WProg α) → Bool
  | [], _, _ => true
  | (j, d, f) :: l, s, ps =>
    match ps j with
    | .done _ => bnew env i l s ps
    | .op o k =>
      let r := if f = true ∧ j ≠ i then .error (.py (.ext 0)) else (wOp env d s o).2
      (decide (j ≠ i) || newWeb s d o) && bnew env i l (wOp env d s o).1 (fun m => if m = j then k r else ps m)

theorem bsim_busy {α : Type} {env : OEnv} {i : Nat} (l : List (Nat × Draw × Bool)) : ∀ (s : WStore) (ps : Nat → WProg α),
    bnew env i l s ps = true → Busy env i s (bsim env i l s ps).1 (bsim env i l s ps).2.1 := by
  induction l with
  | nil => intro s ps _; exact .nil s
  | cons x l ih =>
    obtain ⟨j, d, f⟩ := x
    intro s ps h
    unfold bnew at h
    unfold bsim
    cases hp : ps j with
    | done r =>
      rw [hp] at h
      exact ih s ps h
    | op o k =>
      rw [hp] at h
      obtain ⟨h1, h2⟩ := Bool.and_eq_true_iff.mp h
      by_cases hj : j = i
      · subst hj
        refine .own _ _ _ _ _ _ ?_ (newWeb_iff (by simpa using h1)) (ih _ _ h2)
        simp
      · refine .other _ _ _ _ _ _ _ hj ⟨d, ?_⟩ (ih _ _ h2)
        by_cases hf : f = true ∧ j ≠ i
        · simp only [if_pos hf]
          exact Or.inr ⟨⟨0, rfl⟩, Or.inr trivial⟩
        · simp only [if_neg hf]
          exact Or.inl trivial

theorem bsim_exec {α : Type} {env : OEnv} {n : Nat} (l : List (Nat × Draw × Bool)) : ∀ (s : WStore) (ps : Nat → WProg α) (i : Nat),
    (∀ tr a, WExec ((bsim env n l s ps).2.2 i) tr a → WExec (ps i) (ofWeb i (stepsOf (bsim env n l s ps).1) ++ tr) a) ∧
      WPartial (ps i) (ofWeb i (stepsOf (bsim env n l s ps).1)) := by
  induction l with
  | nil => intro s ps i; exact ⟨fun tr a h => h, .here _⟩
  | cons x l ih =>
    obtain ⟨j, d, f⟩ := x
    intro s ps i
    unfold bsim
    split
    · exact ih s ps i
    · rename_i o k hp
      obtain ⟨h1, h2⟩ := ih (wOp env d s o).1
        (fun m => if m = j then k (if f = true ∧ j ≠ n then .error (.py (.ext 0)) else (wOp env d s o).2) else ps m) i
      by_cases hj : j = i
      · subst hj
        simp only [if_true] at h1 h2
        rw [hp]
        simp only [ofWeb, stepsOf, List.map_cons, List.filterMap_cons, if_true]
        exact ⟨fun tr a h => .op o k _ _ _ (h1 tr a h), .op o k _ _ h2⟩
      · simp only [Ne.symm hj, if_false] at h1 h2
        simp only [ofWeb, stepsOf, List.map_cons, List.filterMap_cons, hj, if_false]
        exact ⟨h1, h2⟩

theorem bsim_draws {α : Type} {env : OEnv} {n : Nat} {l : List (Nat × Draw × Bool)} : ∀ {s : WStore} {ps : Nat → WProg α},
    ∀ q ∈ (bsim env n l s ps).1, ∃ i f, (i, q.1, f) ∈ l := by
  induction l with
  | nil => intro s ps q hq; cases hq
  | cons x l ih =>
    obtain ⟨j, d, f⟩ := x
    intro s ps q hq
    unfold bsim at hq
    split at hq
    · obtain ⟨i, f', h⟩ := ih q hq
      exact ⟨i, f', List.mem_cons_of_mem _ h⟩
    · rcases List.mem_cons.mp hq with rfl | hq
      · exact ⟨j, f, List.mem_cons_self⟩
      · obtain ⟨i, f', h⟩ := ih q hq
        exact ⟨i, f', List.mem_cons_of_mem _ h⟩

/-- A request; all the others are attempts of the second client to revoke the refresh token of the first one. -/
def busyReqs (own : WebRequest) : Nat → WebRequest
  | 0 => own
  | _ => keepReqs 0

/-- The requests 1 and 2 are processed at the same time as the request 0. The second operation of the request 2 fails. -/
def busyTurns (k : Fin 64) : List (Nat × Draw × Bool) :=
  (List.range 13).flatMap fun n => [(0, exDraw k, false), (1, exDraw 0, false), (2, exDraw 0, decide (n = 1))]

def busySim (k : Fin 64) (own : WebRequest) : List (Draw × WStep) × WStore × (Nat → WProg (ORes Served)) :=
  bsim toyEnv 0 (busyTurns k) keepStore (fun i => app toyEnv (exHooks toyEnv) (fun _ => true) (busyReqs own i))

/-- Is the request served, with new draws? -/
def busyOk (k : Fin 64) (own : WebRequest) : Bool :=
  bnew toyEnv 0 (busyTurns k) keepStore (fun i => app toyEnv (exHooks toyEnv) (fun _ => true) (busyReqs own i)) &&
    match wout ((busySim k own).2.2 0) with
    | some (.ok _) => true
    | _ => false

theorem busySim_draws {k : Fin 64} {own : WebRequest} : ∀ q ∈ (busySim k own).1, q.1.stamp = 1 ∧ q.1.stamp2 = 1 ∧ q.1.now = 1000000 := by
  intro q hq
  obtain ⟨i, f, h⟩ := bsim_draws q hq
  obtain ⟨n, -, h⟩ := List.mem_flatMap.mp h
  simp only [List.mem_cons, List.not_mem_nil, or_false, Prod.mk.injEq] at h
  rcases h with ⟨-, e, -⟩ | ⟨-, e, -⟩ | ⟨-, e, -⟩ <;> rw [e] <;> exact ⟨rfl, rfl, rfl⟩

theorem busy_amid {k : Fin 64} {own : WebRequest} (ht : Tame own) (h : busyOk k own = true) :
    ∃ sv, wout ((busySim k own).2.2 0) = some (.ok sv) ∧
      Amid toyEnv (fun _ => true) keepStore (busySim k own).2.1 (busyReqs own) 0 (busySim k own).1 (.ok sv) := by
  obtain ⟨h1, h2⟩ := Bool.and_eq_true_iff.mp h
  split at h2
  · rename_i sv hsv
    refine ⟨sv, hsv, fun i => (bsim_exec (busyTurns k) keepStore
      (fun i => app toyEnv (exHooks toyEnv) (fun _ => true) (busyReqs own i)) i).2, bsim_busy _ _ _ h1, ?_, promptFor_stamps fun q hq => ?_, ?_⟩
    · intro j
      cases j with
      | zero => exact ht
      | succ j => exact keep_tame 0
    · obtain ⟨e1, e2, -⟩ := busySim_draws q hq
      exact ⟨e1, e2⟩
    · have := (bsim_exec (env := toyEnv) (n := 0) (busyTurns k) keepStore
        (fun i => app toyEnv (exHooks toyEnv) (fun _ => true) (busyReqs own i)) 0).1 [] (.ok sv)
      rw [List.append_nil] at this
      apply this
      show WExec ((busySim k own).2.2 0) [] _
      unfold wout at hsv
      split at hsv
      · cases hsv
        rename_i hd
        rw [hd]
        exact .done _
      · cases hsv
  · cases h2

theorem keep_keyed : KeyedStore keepStore.db := ⟨by decide +kernel, by decide +kernel⟩

/-- The exchange of the code. -/
def busyExchange : WebRequest :=
  { webExchange with
    body := by! "grant_type=authorization_code&redirect_uri=https://c/cb&code_verifier=aaaaaaaaaaaaaaaaaaaaaaaaaaaaaaaaaaaaaaaaaaa&code=abc" }

/-- An authorization in the session. -/
def busyStart : WebRequest := { tourStart with cookie := some ⟨py! "u1", py! "s1"⟩ }

theorem busy_tame {body : Bytes} : Tame { webExchange with body } := ⟨(tour_call (body := body)).names, nofun⟩

/-- Others do fail meanwhile: the second operation of the request 2, and the application does not answer it. -/
example : (match wout ((busySim 1 busyExchange).2.2 2) with | some (.ok _) => false | _ => true) = true ∧
    (match wout ((busySim 1 busyExchange).2.2 1) with | some (.ok _) => true | _ => false) = true := by
  decide +kernel

/-- `C142_code` applies to a history of three requests, in which the exchange is served. -/
example : ∃ sv r reply d access, wout ((busySim 1 busyExchange).2.2 0) = some (.ok sv) ∧ sv = ⟨reply, none⟩ ∧ PassedOn r reply ∧
    GivesAccess toyEnv 0 (busySim 1 busyExchange).1 exClient exUser [py! "openid"] r d access ∧
    GivesRefresh toyEnv 0 keepStore (busySim 1 busyExchange).1 (busySim 1 busyExchange).2.1 exClient exUser d := by
  obtain ⟨sv, o, h⟩ := busy_amid (busy_tame (body := busyExchange.body)) (by decide +kernel : busyOk 1 busyExchange = true)
  obtain ⟨r, reply, d, access, h1, h2, h3, -, h4⟩ := C142_code (reqs := busyReqs busyExchange) (i := 0) toyFloat_laws toyHash_lengths
    keep_sound keep_keyed exClient exUser (py! "abc") isoCode.2 rfl rfl List.mem_cons_self rfl rfl (by decide)
    (tour_call (body := busyExchange.body)) (by
      intro r hr
      have hd := arrived_data hr
      have hget : [py! "grant_type", py! "code", py! "redirect_uri", py! "code_verifier"].map (Dict.get r.data) =
          [some (py! "authorization_code"), some (py! "abc"), some (py! "https://c/cb"), some toyVerifier] := by
        rw [hd]
        decide +kernel
      simp only [List.map_cons, List.map_nil, List.cons.injEq, and_true] at hget
      obtain ⟨g1, g2, g3, g4⟩ := hget
      exact ⟨g1, by decide, ⟨.basic, tour_identifies (body := busyExchange.body) hr⟩, ⟨g2, by decide⟩, ⟨g3, by decide, by decide⟩,
        toyVerifier, g4, by decide, Or.inl ⟨rfl, rfl⟩⟩) h (by
      intro pre j ev post q id he hj hr
      cases j with
      | zero => exact absurd rfl hj
      | succ j => cases hr) (by
      intro p hp _
      rw [(busySim_draws p hp).2.2]
      decide)
  exact ⟨sv, r, reply, d, access, o, Except.ok.inj h1, h2, h3, h4 (by decide)⟩

/-- Does this step of another request than 0 look for another client than the first? -/
def otherClient : WStep → Bool
  | (0, _) => true
  | (_, ⟨.lib (.findClient id), _⟩) => decide (id ≠ py! "c1")
  | _ => true

/-- `C142_refresh` applies to a history of three requests, in which the token is used while another client tries to revoke it. -/
example : ∃ sv r reply d access scopes, wout ((busySim 2 lastAgain).2.2 0) = some (.ok sv) ∧ sv = ⟨reply, none⟩ ∧ PassedOn r reply ∧
    GivesAccess toyEnv 0 (busySim 2 lastAgain).1 exClient exUser scopes r d access ∧
    GivesRefresh toyEnv 0 keepStore (busySim 2 lastAgain).1 (busySim 2 lastAgain).2.1 exClient exUser d := by
  obtain ⟨sv, o, h⟩ := busy_amid (busy_tame (body := lastAgain.body)) (by decide +kernel : busyOk 2 lastAgain = true)
  have hother : (stepsOf (busySim 2 lastAgain).1).all otherClient = true := by decide +kernel
  obtain ⟨r, reply, d, access, scopes, h1, h2, h3, h4, -⟩ := C142_refresh (reqs := busyReqs lastAgain) (i := 0) toyFloat_laws
    keep_sound keep_keyed exClient exUser ⟨py! "rt", py! "c1", py! "u1", [py! "openid"], 9000000⟩ [] rfl rfl List.mem_cons_self rfl rfl
    (tour_call (body := lastAgain.body)) (by
      intro r hr
      have hd := arrived_data hr
      have hget : [py! "grant_type", py! "refresh_token", py! "scope"].map (Dict.get r.data) =
          [some (py! "refresh_token"), some (py! "rt"), none] := by
        rw [hd]
        decide +kernel
      simp only [List.map_cons, List.map_nil, List.cons.injEq, and_true] at hget
      obtain ⟨g1, g2, g3⟩ := hget
      exact ⟨g1, by decide, ⟨.basic, tour_identifies (body := lastAgain.body) hr⟩, ⟨g2, by decide⟩, Or.inl ⟨g3, rfl⟩, nofun⟩) h (by
      rintro pre j ev post q he hr ⟨-, c, -, -, hm, -⟩
      cases j with
      | zero => cases hr
      | succ j =>
        have := List.all_eq_true.mp hother _ (he ▸ List.mem_append_left _ hm)
        simp [otherClient] at this
        exact absurd rfl this) (by
      intro pre j ev post he hr
      cases j <;> cases hr) (by
      intro p hp _
      rw [(busySim_draws p hp).2.2]
      decide)
  exact ⟨sv, r, reply, d, access, scopes, o, Except.ok.inj h1, h2, h3, h4⟩

/-- `C142_session` and `C142_answered` apply to a history of three requests, in which the browser is sent to the client. -/
example : ∃ sv headers body loc code, wout ((busySim 3 busyStart).2.2 0) = some (.ok sv) ∧
    sv = ⟨.response 303 headers body, none⟩ ∧ (py! "location", loc) ∈ headers ∧
    urldecode (urlQuery loc) = visible [(py! "code", some code), (py! "state", some (py! "s"))] ∧
    Proper (busyReqs busyStart 0) := by
  have ha : AsksForTokens busyStart exClient exUser (py! "https://c/cb") toyVerifier (py! "plain") (some (py! "s")) [py! "openid"] :=
    asks_cookie tourStart_asks _
  obtain ⟨sv, o, h⟩ := busy_amid (asks_tame ha) (by decide +kernel : busyOk 3 busyStart = true)
  obtain ⟨headers, body, loc, code, h1, h2, h3, -⟩ := C142_session (reqs := busyReqs busyStart) (i := 0) toyFloat_laws toyHash_lengths
    keep_sound keep_keyed exClient exUser (py! "s1") rfl rfl List.mem_cons_self _ _ _ _ _ ha rfl h (by
      intro pre j ev post he hr
      cases j <;> cases hr)
  exact ⟨sv, headers, body, loc, code, o, Except.ok.inj h1, h2, h3, asks_proper ha⟩

end Psion.Props
