import Verif.Spec.CodeReplay
import Verif.Props.Rotation

/-!
# Property C143: the second use of a code

RFC 6749, section 4.1.2: if an authorization code is used more than once, the authorization server must deny the request and should
revoke all tokens previously issued based on that code.
-/

namespace Psion.Props

open Psion Spec Example

variable {env : OEnv} {emailOk : PyStr → Bool} {reqs : Nat → WebRequest}

/-! ## The code stays away -/

theorem exOp_gone (env : OEnv) (d : Draw) (m : Store) (o : Op) {code : PyStr} (h : Dict.get m.codes code = none)
    (ho : ∀ data c u, o ≠ .saveCode code data c u) : Dict.get (exOp env d m o).1.codes code = none := by
  cases o with
  | saveCode code' data c u =>
    have hne : code' ≠ code := by
      rintro rfl
      exact ho data c u rfl
    show Dict.get (saveCode m d code' data c u).1.codes code = none
    rw [Dict.get_eq_none_iff] at h ⊢
    unfold saveCode
    split
    · split
      · exact h
      · split
        · intro hm
          rcases List.mem_cons.mp hm with hm | hm
          · exact hne hm.symm
          · exact h hm
        · exact h
    · exact h
    · exact h
  | deleteCode v =>
    show Dict.get (Example.deleteCode m v).codes code = none
    rw [Dict.get_eq_none_iff] at h ⊢
    unfold Example.deleteCode
    split
    · exact fun hm => h (List.filter_sublist.map _ |>.subset hm)
    · exact h
  | _ =>
    rw [exOp_codes env d m _ rfl]
    exact h

theorem wOp_gone (env : OEnv) (d : Draw) (w : WStore) (o : WOp) {code : PyStr} (h : Dict.get w.db.codes code = none)
    (ho : ∀ data c u, o ≠ .lib (.saveCode code data c u)) : Dict.get (wOp env d w o).1.db.codes code = none := by
  cases o with
  | lib o => exact exOp_gone env d w.db o h (fun data c u e => ho data c u (by rw [e]))
  | saveSession sid uid =>
    simp only [wOp]
    split <;> exact h
  | _ => exact h

theorem gone_stays {w w' : WStore} {h : List WStep} (hrun : OnlyRequests env w h w') {code : PyStr}
    (hg : Dict.get w.db.codes code = none) (hn : NotDrawnAgain h code) : Dict.get w'.db.codes code = none := by
  induction hrun with
  | nil => exact hg
  | step w w1 w2 i ev h he _ ih =>
    refine ih ?_ (fun j data c u ans hm => hn j data c u ans (List.mem_cons_of_mem _ hm))
    rcases weffect_store he with rfl | ⟨d, rfl⟩
    · exact hg
    · refine wOp_gone env d w ev.op hg (fun data c u e => ?_)
      obtain ⟨o, ans⟩ := ev
      cases e
      exact hn i data c u ans List.mem_cons_self

/-! ## The request with the code -/

/-- The answer of the token endpoint to a proper request is passed on. -/
theorem visit_answer (hl : FloatLaws env.cr.fe) (hh : HashLengths env.he) {w w' : WStore} {req : WebRequest} {l : List (Draw × WEv)}
    {out : ORes Served} (h : Visit env emailOk w req l w' out) (hs : SoundStore w.db) (hc : TokenCall req) (hp : Proper req) :
    ∃ r resp reply, ArrivesAs req none r ∧ Alone env w.db (libDraws l) w'.db ∧
      Exec (exProvider.token env (exHooks env) r) (events (libDraws l)) (.ok resp) ∧ PassedOn resp reply ∧
      out = .ok ⟨reply, none⟩ := by
  have ht : Tame req := ⟨hc.names, fun hr => by rw [hc.route] at hr; cases hr⟩
  obtain ⟨h1, h2⟩ := visit_history h
  obtain ⟨sv, hsv⟩ := C90_partial env hl hh emailOk (fun _ => req) w w' (asSteps l) hs (fun _ => ht) h2 h.alone 0 hp h.prompt out
    (by rw [h1]; exact h.runs)
  have hx := h.runs
  unfold app at hx
  rw [hc.cookie] at hx
  obtain ⟨hlib, r, lib, hr, hends, hend⟩ := view_library (.inr ⟨.inl hc.route, hc.method⟩) hc.host hx
  obtain ⟨ha, he, -⟩ := operates_lib h.alone hlib
  rw [hc.route] at hends
  have harr := createRequest_faithful hr hc.names
  cases hends with
  | token _ _ response hx =>
    rcases hend with ⟨_, h, _⟩ | ⟨h, _⟩ | ⟨r', h, ⟨reply, h1, h2⟩ | ⟨-, e, h2⟩⟩
    · cases h
    · cases h
    · cases h
      exact ⟨r, response, reply, harr, ha, he ▸ hx, h1, h2⟩
    · rw [h2] at hsv
      cases hsv
  | noToken _ _ e hx =>
    rcases hend with ⟨e', h, h'⟩ | ⟨h, _⟩ | ⟨r', h, _⟩
    · rw [h'] at hsv
      cases hsv
    · cases h
    · cases h

theorem store_eq {n m : Store} (h1 : n.users = m.users) (h2 : n.clients = m.clients) (h3 : n.codes = m.codes)
    (h4 : n.refresh = m.refresh) : n = m := by
  cases n
  cases m
  cases h1
  cases h2
  cases h3
  cases h4
  rfl

theorem alone_same {m m' : Store} {l : List (Draw × Ev)} (h : Alone env m l m') {code : PyStr} (hg : Dict.get m.codes code = none)
    (hop : ∀ ev ∈ events l, writesCodes ev.op = true → ev.op = .deleteCode (.str code))
    (hrf : ∀ ev ∈ events l, writesRefresh ev.op = false) : m' = m := by
  induction h with
  | nil => rfl
  | step m m1 m2 d ev l h1 _ _ ih =>
    have e : m1 = m := by
      have e1 : m1 = (exOp env d m ev.op).1 := (congrArg Prod.fst h1).symm
      have hc : (exOp env d m ev.op).1.codes = m.codes := by
        cases hw : writesCodes ev.op with
        | false => exact exOp_codes env d m _ hw
        | true =>
          rw [hop ev List.mem_cons_self hw]
          show (Example.deleteCode m (.str code)).codes = _
          refine List.filter_eq_self.mpr (fun kv hkv => decide_eq_true (fun e => ?_))
          exact Dict.get_eq_none_iff.mp hg (e ▸ List.mem_map_of_mem hkv)
      have hr := exOp_refresh env d m ev.op (hrf ev List.mem_cons_self)
      obtain ⟨hu, hcl⟩ := exOp_tables env d m ev.op
      exact e1.trans (store_eq hu hcl hc hr)
    subst e
    exact ih hg (fun ev h => hop ev (List.mem_cons_of_mem _ h)) (fun ev h => hrf ev (List.mem_cons_of_mem _ h))

/-- C143, what holds: once a code has been exchanged, every further request with it is refused and changes nothing in the database; whatever other
requests do in between, if no authorization happens to draw the same code. Missing is that the tokens are revoked
(`C143_refuted`). -/
theorem C143_partial (hl : FloatLaws env.cr.fe) (hh : HashLengths env.he) {m : Store} {w w1 w' : WStore} {h : List WStep}
    {l0 : List (Draw × Ev)} {l : List (Draw × WEv)} {out : ORes Served} (hs : SoundStore w.db) (hk : KeyedStore w.db)
    (row : ClientRow) (urow : UserRow) (code : PyStr) (scopes : List PyStr) (first : Response)
    (hfirst : ServedExchange env m l0 w.db row urow code scopes first)
    (hm : Meanwhile env emailOk w w1 reqs h) (hn : NotDrawnAgain h code)
    (again : WebRequest) (hp : PresentsCode again code) (hv : Visit env emailOk w1 again l w' out) :
    ∃ resp reply, out = .ok ⟨reply, none⟩ ∧ PassedOn resp reply ∧ resp.status = 400 ∧ w'.db = w1.db ∧
      ∀ d c owner s ans, (d, (⟨.lib (.createAccess c owner s), ans⟩ : WEv)) ∉ l := by
  have hst := stays_meanwhile hm hs hk
  obtain ⟨d, access, -, -, -, -, -, -, -, -, hgone⟩ := hfirst
  have hgone := gone_stays hm.run hgone hn
  obtain ⟨r, resp, reply, harr, ha, hx, hpass, rfl⟩ := visit_answer hl hh hv hst.sound hp.toTokenCall hp.proper
  have hb := exHooks_benign env
  have hnone : ∀ ac, ¬ FoundCode (events (libDraws l)) (.str code) ac := by
    intro ac hf
    obtain ⟨d, m1, m2, hop, h1, -⟩ := alone_lookup ha hx hf (Or.inl ⟨_, rfl⟩)
    have : Except.ok (Dict.get m1.codes code) = _ := congrArg Prod.snd hop
    rw [h1, hgone] at this
    cases this
  have hacc : ∀ c owner s ans, (⟨.createAccess c owner s, ans⟩ : Ev) ∉ events (libDraws l) := by
    intro c owner s ans hmem
    obtain ⟨pre, post, he⟩ := List.append_of_mem hmem
    have hpx := exec_partial hx
    rw [he] at hpx
    obtain ⟨code', ac, uri, u, h1, h2, -⟩ := C40_code_binding env _ hb exProvider r pre post c owner s ans (hp.type r harr) hpx
    rw [hp.code r harr] at h1
    cases h1
    exact hnone ac (by rw [he]; exact List.mem_append_left _ h2)
  have href : ∀ c u s ans, (⟨.createRefresh c u s, ans⟩ : Ev) ∉ events (libDraws l) := by
    intro c u s ans hmem
    obtain ⟨pre, post, he⟩ := List.append_of_mem hmem
    have hpx := exec_partial hx
    rw [he] at hpx
    obtain ⟨code', ac, uri, u, h1, h2, -⟩ := C40_code_binding_refresh env _ hb exProvider r pre post c u s ans (hp.type r harr) hpx
    rw [hp.code r harr] at h1
    cases h1
    exact hnone ac (by rw [he]; exact List.mem_append_left _ h2)
  obtain ⟨ops, hw, hpre⟩ := C82_token env _ hb exProvider r _ (exec_partial hx)
  have hops : ∀ ev ∈ events (libDraws l), touchesStore ev.op = true →
      (∃ v, ev.op = .getCode v) ∨ (∃ t, ev.op = .getRefresh t) ∨ (∃ c o s, ev.op = .createAccess c o s) ∨
        (∃ c u s, ev.op = .createRefresh c u s) ∨ ev.op = .deleteCode (.str code) := by
    intro ev hev ht
    have hmem := hpre.subset (mem_storeOps hev ht)
    have hcode := hp.code r harr
    generalize ev.op = o at hmem
    cases hw with
    | nothing => cases hmem
    | credentials =>
      cases List.mem_singleton.mp hmem
      exact Or.inr (Or.inr (Or.inl ⟨_, _, _, rfl⟩))
    | refresh =>
      simp only [List.mem_cons, List.not_mem_nil, or_false] at hmem
      rcases hmem with rfl | rfl | rfl
      · exact Or.inr (Or.inl ⟨_, rfl⟩)
      · exact Or.inr (Or.inr (Or.inl ⟨_, _, _, rfl⟩))
      · exact Or.inr (Or.inr (Or.inr (Or.inl ⟨_, _, _, rfl⟩)))
    | failed c hc =>
      rw [hcode] at hc
      cases hc
      cases List.mem_singleton.mp hmem
      exact Or.inr (Or.inr (Or.inr (Or.inr rfl)))
    | refused c hc =>
      rw [hcode] at hc
      cases hc
      simp only [List.mem_cons, List.not_mem_nil, or_false] at hmem
      rcases hmem with rfl | rfl
      · exact Or.inl ⟨_, rfl⟩
      · exact Or.inr (Or.inr (Or.inr (Or.inr rfl)))
    | code c _ _ _ hc =>
      rw [hcode] at hc
      cases hc
      simp only [List.mem_cons, List.not_mem_nil, or_false] at hmem
      rcases hmem with rfl | rfl | rfl
      · exact Or.inl ⟨_, rfl⟩
      · exact Or.inr (Or.inr (Or.inl ⟨_, _, _, rfl⟩))
      · exact Or.inr (Or.inr (Or.inr (Or.inr rfl)))
    | codeRefresh c _ _ _ hc =>
      rw [hcode] at hc
      cases hc
      simp only [List.mem_cons, List.not_mem_nil, or_false] at hmem
      rcases hmem with rfl | rfl | rfl | rfl
      · exact Or.inl ⟨_, rfl⟩
      · exact Or.inr (Or.inr (Or.inl ⟨_, _, _, rfl⟩))
      · exact Or.inr (Or.inr (Or.inr (Or.inl ⟨_, _, _, rfl⟩)))
      · exact Or.inr (Or.inr (Or.inr (Or.inr rfl)))
  refine ⟨resp, reply, rfl, hpass, ?_, ?_, ?_⟩
  · rcases C44_status env _ hb exProvider r _ resp hx with h200 | h400
    · obtain ⟨-, code', ac', -, hc', hf', -⟩ := C56_exact env hl exProvider r _ resp (hp.type r harr) hx h200
      rw [hp.code r harr] at hc'
      cases hc'
      exact absurd hf' (hnone ac')
    · exact h400
  · refine alone_same ha hgone (fun ev hev hwr => ?_) (fun ev hev => ?_)
    · have ht : touchesStore ev.op = true := by cases ho : ev.op <;> rw [ho] at hwr <;> first | rfl | cases hwr
      rcases hops ev hev ht with ⟨v, e⟩ | ⟨t, e⟩ | ⟨c, o, s, e⟩ | ⟨c, u, s, e⟩ | e
      · rw [e] at hwr; cases hwr
      · rw [e] at hwr; cases hwr
      · rw [e] at hwr; cases hwr
      · rw [e] at hwr; cases hwr
      · exact e
    · cases hwr : writesRefresh ev.op with
      | false => rfl
      | true =>
        exfalso
        have ht : touchesStore ev.op = true := by cases ho : ev.op <;> rw [ho] at hwr <;> first | rfl | cases hwr
        rcases hops ev hev ht with ⟨v, e⟩ | ⟨t, e⟩ | ⟨c, o, s, e⟩ | ⟨c, u, s, e⟩ | e
        · rw [e] at hwr; cases hwr
        · rw [e] at hwr; cases hwr
        · rw [e] at hwr; cases hwr
        · obtain ⟨o, ans⟩ := ev
          cases e
          exact href c u s ans hev
        · rw [e] at hwr; cases hwr
  · intro d c owner s ans hmem
    refine hacc c owner s ans (List.mem_map.mpr ⟨(d, _), List.mem_filterMap.mpr ⟨_, hmem, rfl⟩, rfl⟩)

/-- C143 is false: no request to the token endpoint makes a refresh token unusable. Whatever such a request presents, be it the code from
which the refresh token came, and however it is answered: afterwards the client can use the refresh token. -/
theorem C143_refuted (hl : FloatLaws env.cr.fe) {w w1 w' : WStore} {l l2 : List (Draw × WEv)} {out out2 : ORes Served}
    (hs : SoundStore w.db) (hk : KeyedStore w.db) (row : ClientRow) (urow : UserRow) (rt : RefreshTok)
    (hc : w.db.findClient row.id = some row) (hu : w.db.findUser urow.id = some urow) (hrt : rt ∈ w.db.refresh)
    (hac : rt.clientId = row.id) (hau : rt.userId = urow.id)
    (replay : WebRequest) (htr : TokenCall replay) (hvr : Visit env emailOk w replay l w1 out)
    (again : WebRequest) (htc : TokenCall again) (hr : ∀ r, ArrivesAs again none r → Refreshes r row rt.token rt.scopes [])
    (hv : Visit env emailOk w1 again l2 w' out2) (hnow : ∀ p ∈ l2, p.1.now < rt.expiration) :
    ∃ r reply scopes, out2 = .ok ⟨reply, none⟩ ∧ PassedOn r reply ∧
      ServedRefresh env w1.db (libDraws l2) w'.db row urow scopes r ∧ ∀ s, s ∈ scopes ↔ s ∈ rt.scopes ∧ s ∈ row.scopes := by
  have ht : Tame replay := ⟨htr.names, fun hr => by rw [htr.route] at hr; cases hr⟩
  obtain ⟨r, reply, scopes, h1, h2, h3, h4, -⟩ := C134_refresh hl hs hk row urow rt [] hc hu hrt hac hau
    ⟨(visit_history hvr).2, onlyRequests_operates hvr.alone, fun _ => ht⟩
    (by
      intro pre i ev post q _ hrev
      rw [htr.route] at hrev
      cases hrev)
    (by
      intro pre i ev post _ hlog
      rw [htr.route] at hlog
      cases hlog) again htc hr hv hnow
  exact ⟨r, reply, scopes, h1, h2, h3, h4 rfl⟩

/-! ### The hypotheses are satisfiable -/

def replayedCode : AuthCode :=
  ⟨py! "c1", py! "u1", py! "https://c/cb", [py! "openid"], toyVerifier, py! "plain", some (py! "n"), 9000000⟩

def replayStore : WStore := ⟨{ exStore with codes := [(List.replicate 64 97, replayedCode)] }, []⟩

/-- The client exchanges the code, the code is presented once more, and the client uses the refresh token. -/
def codeUse := tour 13 1 replayStore webExchange
def codeReplay := tour 6 3 codeUse.2.1 webExchange
def tokenUse := tour 6 2 codeReplay.2.1 tourAgain

def replayedToken : RefreshTok := ⟨List.replicate 32 98, py! "c1", py! "u1", [py! "openid"], 1000000 + 14 * 86400 * 1000000⟩

theorem replay_sound : SoundStore replayStore.db := by
  refine ⟨⟨exStore_sound.plain.users, exStore_sound.plain.clients, ?_, exStore_sound.plain.refresh⟩, ?_, exStore_sound.refresh⟩
  · intro code ac h s hs
    cases List.mem_singleton.mp h
    cases List.mem_singleton.mp hs
    exact encodable_ascii (by decide)
  · intro code ac h
    cases List.mem_singleton.mp h
    exact List.cons_ne_nil _ _

theorem replay_keyed : KeyedStore replayStore.db := ⟨by decide +kernel, List.nodup_nil⟩

theorem exchange_tame : Tame webExchange := ⟨webExchange_proper.names, nofun⟩

theorem exchange_data {r : Request} (hr : ArrivesAs webExchange none r) :
    Dict.get r.data (py! "grant_type") = some (py! "authorization_code") ∧ Dict.get r.data (py! "code") = some (List.replicate 64 97) ∧
    Dict.get r.data (py! "redirect_uri") = some (py! "https://c/cb") ∧ Dict.get r.data (py! "code_verifier") = some toyVerifier := by
  have hget : [py! "grant_type", py! "code", py! "redirect_uri", py! "code_verifier"].map (Dict.get r.data) =
      [some (py! "authorization_code"), some (List.replicate 64 97), some (py! "https://c/cb"), some toyVerifier] := by
    rw [arrived_data hr]
    decide +kernel
  simpa only [List.map_cons, List.map_nil, List.cons.injEq, and_true] using hget

theorem exchange_presents : PresentsCode webExchange (List.replicate 64 97) :=
  ⟨tour_call (body := webExchange.body), webExchange_proper, fun _ hr => (exchange_data hr).1, fun _ hr => (exchange_data hr).2.1⟩

theorem codeUse_visit : ∃ sv, wout codeUse.2.2 = some (.ok sv) ∧
    Visit toyEnv (fun _ => true) replayStore webExchange codeUse.1 codeUse.2.1 (.ok sv) :=
  tour_visit rfl (by decide +kernel : tourOk 13 1 replayStore webExchange = true)

theorem codeReplay_visit : ∃ sv, wout codeReplay.2.2 = some (.ok sv) ∧
    Visit toyEnv (fun _ => true) codeUse.2.1 webExchange codeReplay.1 codeReplay.2.1 (.ok sv) :=
  tour_visit rfl (by decide +kernel : tourOk 6 3 codeUse.2.1 webExchange = true)

theorem codeUse_stays : Stays replayStore codeUse.2.1 := by
  obtain ⟨sv, -, v⟩ := codeUse_visit
  exact stays_visit v exchange_tame replay_sound replay_keyed

/-- `C143_partial` applies: the code is exchanged, and presented once more it is refused with the status 400. -/
example : ∃ first resp reply, ServedExchange toyEnv replayStore.db (libDraws codeUse.1) codeUse.2.1.db exClient exUser (List.replicate 64 97)
      [py! "openid"] first ∧
    wout codeReplay.2.2 = some (.ok ⟨reply, none⟩) ∧ PassedOn resp reply ∧ resp.status = 400 ∧ codeReplay.2.1.db = codeUse.2.1.db := by
  obtain ⟨sv, o, v⟩ := codeUse_visit
  obtain ⟨sv2, o2, v2⟩ := codeReplay_visit
  obtain ⟨first, _, -, -, hfirst⟩ := C134_code toyFloat_laws toyHash_lengths replay_sound replay_keyed exClient exUser _ replayedCode rfl rfl
    List.mem_cons_self rfl rfl (by decide) (nothing_meanwhile (reqs := fun _ => webExchange) fun _ => exchange_tame)
    (fun pre i ev post q id he => by cases pre <;> cases he) webExchange exchange_presents.toTokenCall (by
      intro r hr
      obtain ⟨g1, g2, g3, g4⟩ := exchange_data hr
      exact ⟨g1, by decide, ⟨.basic, tour_identifies (body := webExchange.body) hr⟩, ⟨g2, by decide⟩, ⟨g3, by decide, by decide⟩,
        toyVerifier, g4, by decide, Or.inl ⟨rfl, rfl⟩⟩) v (by
      intro p hp
      rw [List.eq_of_mem_replicate (wsolo_draws p hp)]
      exact (by decide : (1000000 : Int) < 9000000))
  obtain ⟨resp, reply, e, h1, h2, h3, -⟩ := C143_partial toyFloat_laws toyHash_lengths codeUse_stays.sound codeUse_stays.keyed _ _ _ _ _ hfirst
    (nothing_meanwhile (reqs := fun _ => webExchange) fun _ => exchange_tame) (fun _ _ _ _ _ => List.not_mem_nil)
    webExchange exchange_presents v2
  cases e
  exact ⟨first, resp, reply, hfirst, o2, h1, h2, h3⟩

/-- `C143_refuted` applies: after the second use of the code the refresh token from the first one is accepted. -/
example : ∃ r reply scopes, wout tokenUse.2.2 = some (.ok ⟨reply, none⟩) ∧ PassedOn r reply ∧
    ServedRefresh toyEnv codeReplay.2.1.db (libDraws tokenUse.1) tokenUse.2.1.db exClient exUser scopes r := by
  obtain ⟨sv2, o2, v2⟩ := codeReplay_visit
  obtain ⟨sv3, o3, v3⟩ : ∃ sv, wout tokenUse.2.2 = some (.ok sv) ∧
      Visit toyEnv (fun _ => true) codeReplay.2.1 tourAgain tokenUse.1 tokenUse.2.1 (.ok sv) :=
    tour_visit rfl (by decide +kernel : tourOk 6 2 codeReplay.2.1 tourAgain = true)
  have hrt : replayedToken ∈ codeUse.2.1.db.refresh := by
    have : codeUse.2.1.db.refresh = [replayedToken] := by decide +kernel
    rw [this]
    exact List.mem_cons_self
  obtain ⟨r, reply, scopes, e, h1, h2, -⟩ := C143_refuted toyFloat_laws codeUse_stays.sound codeUse_stays.keyed exClient exUser replayedToken
    (by rw [codeUse_stays.findClient]; rfl) (by rw [codeUse_stays.findUser]; rfl) hrt rfl rfl
    webExchange exchange_presents.toTokenCall v2 tourAgain tour_call (by
      intro r hr
      have hget : [py! "grant_type", py! "refresh_token", py! "scope"].map (Dict.get r.data) =
          [some (py! "refresh_token"), some (List.replicate 32 98), none] := by
        rw [arrived_data hr]
        decide +kernel
      simp only [List.map_cons, List.map_nil, List.cons.injEq, and_true] at hget
      obtain ⟨g1, g2, g3⟩ := hget
      exact ⟨g1, by decide, ⟨.basic, tour_identifies hr⟩, ⟨g2, by decide⟩, Or.inl ⟨g3, rfl⟩, nofun⟩) v3 (by
      intro p hp
      rw [List.eq_of_mem_replicate (wsolo_draws p hp)]
      exact (by decide : (1000000 : Int) < 1000000 + 14 * 86400 * 1000000))
  cases e
  exact ⟨r, reply, scopes, o3, h1, h2⟩

end Psion.Props
