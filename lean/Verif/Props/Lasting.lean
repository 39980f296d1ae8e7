import Verif.Spec.Lasting
import Verif.Props.Persistence
import Verif.Props.WebFlow

/-!
# Property C134: a flow succeeds, whatever others do meanwhile
-/

namespace Psion.Props

open Psion Spec Example

variable {env : OEnv} {emailOk : PyStr → Bool} {reqs : Nat → WebRequest}

/-! ## What stays as it is -/

theorem keyed_exOp (env : OEnv) (d : Draw) (m : Store) (o : Op) (hp : KeyedStore m) : KeyedStore (exOp env d m o).1 := by
  cases o with
  | createRefresh c u s =>
    refine ⟨by rw [show (exOp env d m (.createRefresh c u s)).1.codes = m.codes from exOp_codes env d m _ rfl]; exact hp.codes, ?_⟩
    show ((createRefresh m d c u s).1.refresh.map RefreshTok.token).Nodup
    unfold createRefresh
    split
    · exact hp.refresh
    · split
      · exact hp.refresh
      · split
        · exact hp.refresh
        · split
          · rename_i hc
            rw [List.map_cons, List.nodup_cons]
            refine ⟨?_, hp.refresh⟩
            intro hm
            obtain ⟨r, hr, he⟩ := List.mem_map.mp hm
            have hn := Option.isNone_iff_eq_none.mp hc.1
            unfold Store.findRefresh at hn
            rw [List.find?_eq_none] at hn
            exact hn r hr (by simpa using he)
          · exact hp.refresh
  | saveCode code data c u =>
    refine ⟨?_, by rw [show (exOp env d m (.saveCode code data c u)).1.refresh = m.refresh from exOp_refresh env d m _ rfl]; exact hp.refresh⟩
    show ((saveCode m d code data c u).1.codes.map Prod.fst).Nodup
    unfold saveCode
    split
    · split
      · exact hp.codes
      · split
        · rename_i hc
          rw [List.map_cons, List.nodup_cons]
          refine ⟨?_, hp.codes⟩
          intro hm
          obtain ⟨⟨k, v⟩, hr, he⟩ := List.mem_map.mp hm
          cases he
          rw [Dict.get_of_mem hp.codes hr] at hc
          cases hc.2.2.2.2.1
        · exact hp.codes
    · exact hp.codes
    · exact hp.codes
  | revoke c t hint => exact ⟨hp.codes, List.Nodup.sublist (List.filter_sublist.map _) hp.refresh⟩
  | deleteCode v =>
    refine ⟨?_, by rw [show (exOp env d m (.deleteCode v)).1.refresh = m.refresh from exOp_refresh env d m _ rfl]; exact hp.refresh⟩
    show ((Example.deleteCode m v).codes.map Prod.fst).Nodup
    unfold Example.deleteCode
    split
    · exact List.Nodup.sublist (List.filter_sublist.map _) hp.codes
    · exact hp.codes
  | getUserinfo u s =>
    simp only [exOp]
    split <;> exact hp
  | _ => exact hp

theorem keyed_wOp (env : OEnv) (d : Draw) (w : WStore) (o : WOp) (hp : KeyedStore w.db) : KeyedStore (wOp env d w o).1.db := by
  cases o with
  | lib o => exact keyed_exOp env d w.db o hp
  | saveSession sid uid =>
    simp only [wOp]
    split <;> exact hp
  | deleteRefresh uid => exact ⟨hp.codes, List.Nodup.sublist (List.filter_sublist.map _) hp.refresh⟩
  | _ => exact hp

/-- The database stays sound, with the same users and clients. -/
structure Stays (w w' : WStore) : Prop where
  sound : SoundStore w'.db
  keyed : KeyedStore w'.db
  users : w'.db.users = w.db.users
  clients : w'.db.clients = w.db.clients

theorem stays_run {w w' : WStore} {h : List WStep} (hrun : OnlyRequests env w h w') (hg : ∀ p ∈ h, GoodOp p.2.op) {m0 : Store}
    (hs : SoundFor m0 w.db) (hk : KeyedStore w.db) : SoundFor m0 w'.db ∧ KeyedStore w'.db := by
  induction hrun with
  | nil => exact ⟨hs, hk⟩
  | step w w1 w2 i ev h he _ ih =>
    have hg' := hg _ List.mem_cons_self
    have key : SoundFor m0 w1.db ∧ KeyedStore w1.db := by
      obtain ⟨d, h1 | ⟨-, rfl | rfl⟩⟩ := he
      · have e : w1 = (wOp env d w ev.op).1 := (congrArg Prod.fst h1).symm
        rw [e]
        exact ⟨sound_wOp hs d _ hg', keyed_wOp env d w _ hk⟩
      · exact ⟨hs, hk⟩
      · exact ⟨sound_wOp hs d _ hg', keyed_wOp env d w _ hk⟩
    exact ih (fun p hp => hg p (List.mem_cons_of_mem _ hp)) key.1 key.2

theorem stays_meanwhile {w w' : WStore} {h : List WStep} (hm : Meanwhile env emailOk w w' reqs h) (hs : SoundStore w.db)
    (hk : KeyedStore w.db) : Stays w w' := by
  obtain ⟨h1, h2⟩ := stays_run hm.run (m0 := w.db) (by
    rintro ⟨i, ev⟩ hp
    exact app_good (hm.tame i) (hm.history i) ev (mem_ofWeb.mpr hp)) ⟨hs, rfl, rfl⟩ hk
  exact ⟨h1.sound, h2, h1.users, h1.clients⟩

theorem onlyRequests_operates {w w' : WStore} {l : List (Draw × WStep)} (h : Operates env w l w') :
    OnlyRequests env w (stepsOf l) w' := by
  induction h with
  | nil => exact .nil _
  | step w w1 w2 d i ev l hop _ _ ih => exact .step _ _ _ _ _ _ ⟨d, Or.inl hop⟩ ih

theorem stays_visit {w w' : WStore} {req : WebRequest} {l : List (Draw × WEv)} {out : ORes Served}
    (h : Visit env emailOk w req l w' out) (ht : Tame req) (hs : SoundStore w.db) (hk : KeyedStore w.db) : Stays w w' :=
  stays_meanwhile ⟨(visit_history h).2, onlyRequests_operates h.alone, fun _ => ht⟩ hs hk

theorem Stays.findClient {w w' : WStore} (h : Stays w w') (id : PyStr) : w'.db.findClient id = w.db.findClient id := by
  unfold Store.findClient
  rw [h.clients]

theorem Stays.findUser {w w' : WStore} (h : Stays w w') (id : PyStr) : w'.db.findUser id = w.db.findUser id := by
  unfold Store.findUser
  rw [h.users]

theorem Stays.tokens {w w' : WStore} (h : Stays w w') : PlainTokens w'.db := ⟨h.keyed.refresh, h.sound.plain.refresh⟩

/-! ## The steps of the flow -/

/-- C134, refresh token: a client that has a refresh token can use it later, whatever happens meanwhile, if it does not revoke it and
the user does not log out. -/
theorem C134_refresh (hl : FloatLaws env.cr.fe) {w w1 w' : WStore} {h : List WStep} {l : List (Draw × WEv)} {out : ORes Served}
    (hs : SoundStore w.db) (hk : KeyedStore w.db) (row : ClientRow) (urow : UserRow) (rt : RefreshTok) (ws : List PyStr)
    (hc : w.db.findClient row.id = some row) (hu : w.db.findUser urow.id = some urow)
    (hrt : rt ∈ w.db.refresh) (hac : rt.clientId = row.id) (hau : rt.userId = urow.id)
    (hm : Meanwhile env emailOk w w1 reqs h) (hnr : NotRevoked reqs h rt.token row.id) (hnl : NotLoggedOut reqs h urow.id)
    (again : WebRequest) (htc : TokenCall again) (hr : ∀ r, ArrivesAs again none r → Refreshes r row rt.token rt.scopes ws)
    (hv : Visit env emailOk w1 again l w' out) (hnow : ∀ p ∈ l, p.1.now < rt.expiration) :
    ∃ r reply scopes, out = .ok ⟨reply, none⟩ ∧ PassedOn r reply ∧ ServedRefresh env w1.db (libDraws l) w'.db row urow scopes r ∧
      (ws = [] → ∀ s, s ∈ scopes ↔ s ∈ rt.scopes ∧ s ∈ row.scopes) ∧ (ws ≠ [] → ∀ s, s ∈ scopes ↔ s ∈ ws) := by
  have hst := stays_meanwhile hm hs hk
  have hkept : rt ∈ w1.db.refresh := by
    rcases C133_refresh (exHooks_benign env) w w1 h hm.history hm.run rt hrt with h1 | ⟨pre, i, ev, post, he, ⟨g1, q, g2, g3⟩ | ⟨g1, g2⟩⟩
    · exact h1
    · exact absurd g3 (hnr pre i ev post q he g1 (hac ▸ g2))
    · exact absurd (hau ▸ g2) (hnl pre i ev post he g1)
  obtain ⟨r, lib, harr, halone, hx, hpass⟩ := visit_token hv htc
  have hrow := List.mem_of_find?_eq_some hc
  have hurow := List.mem_of_find?_eq_some hu
  obtain ⟨resp, scopes, rfl, hserved, h1, h2⟩ := C84_refresh env hl w1.db w'.db (libDraws l) row urow r rt.token rt ws lib
    (by rw [hst.findClient, hc]) (hs.plain.clients row hrow).1 (hs.plain.clients row hrow).2 (by rw [hst.findUser, hu])
    (hs.plain.users urow hurow).1 hst.tokens (find_token hst.keyed.refresh hkept) hac hau (hr r harr) halone
    (libDraws_prompt hv.prompt) (by
      intro p hp
      obtain ⟨p', hp', e1⟩ := libDraws_mem hp
      rw [← e1]
      exact hnow p' hp') hx
  obtain ⟨reply, hp, rfl⟩ := hpass resp rfl (by obtain ⟨d, access, t, rt, h, -⟩ := hserved; exact h)
  exact ⟨resp, reply, scopes, rfl, hp, hserved, h1, h2⟩

/-- C134, code: a client that has a code can exchange it later, whatever happens meanwhile, if nobody presents the code. -/
theorem C134_code (hl : FloatLaws env.cr.fe) (hh : HashLengths env.he) {w w1 w' : WStore} {h : List WStep} {l : List (Draw × WEv)}
    {out : ORes Served} (hs : SoundStore w.db) (hk : KeyedStore w.db) (row : ClientRow) (urow : UserRow) (code : PyStr) (ac : AuthCode)
    (hc : w.db.findClient row.id = some row) (hu : w.db.findUser urow.id = some urow) (hcode : (code, ac) ∈ w.db.codes)
    (hac : ac.clientId = row.id) (hau : ac.userId = urow.id) (hsc : ∀ s ∈ ac.scopes, s ∈ standardScopes)
    (hm : Meanwhile env emailOk w w1 reqs h) (hnp : NotPresented reqs h code)
    (exch : WebRequest) (htc : TokenCall exch)
    (hr : ∀ r, ArrivesAs exch none r → Exchanges env r row code ac.redirectUri ac.challenge ac.challengeMethod)
    (hv : Visit env emailOk w1 exch l w' out) (hnow : ∀ p ∈ l, p.1.now < ac.expiration) :
    ∃ r reply, out = .ok ⟨reply, none⟩ ∧ PassedOn r reply ∧
      ServedExchange env w1.db (libDraws l) w'.db row urow code ac.scopes r := by
  have hst := stays_meanwhile hm hs hk
  have hkept : (code, ac) ∈ w1.db.codes := by
    rcases C133_code_partial (exHooks_benign env) w w1 h hm.history hm.run (code, ac) hcode with h1 | ⟨pre, i, ev, post, he, g1, q, id, g2, g3⟩
    · exact h1
    · exact absurd g3 (hnp pre i ev post q id he g1 g2)
  obtain ⟨r, lib, harr, halone, hx, hpass⟩ := visit_token hv htc
  have hrow := List.mem_of_find?_eq_some hc
  have hurow := List.mem_of_find?_eq_some hu
  obtain ⟨resp, rfl, hserved⟩ := C84_exchange env hl hh w1.db w'.db (libDraws l) row urow r code ac lib
    (by rw [hst.findClient, hc]) (hs.plain.clients row hrow).1 (by rw [hst.findUser, hu])
    (hs.plain.users urow hurow) hst.tokens (Dict.get_of_mem hst.keyed.codes hkept) hac hau ⟨hs.codes code ac hcode, hsc⟩ (hr r harr)
    halone (libDraws_prompt hv.prompt) (by
      intro p hp
      obtain ⟨p', hp', e1⟩ := libDraws_mem hp
      rw [← e1]
      exact hnow p' hp') hx
  obtain ⟨reply, hp, rfl⟩ := hpass resp rfl (by obtain ⟨d, access, h, -⟩ := hserved; exact h)
  exact ⟨resp, reply, rfl, hp, hserved⟩

theorem asks_tame {req : WebRequest} {row : ClientRow} {urow : UserRow} {uri challenge method : PyStr} {state : Option PyStr}
    {ws : List PyStr} (h : AsksForTokens req row urow uri challenge method state ws) : Tame req := by
  refine ⟨h.names, fun _ user r s ha hsc hw => ?_⟩
  obtain ⟨-, text, h3, h4⟩ := asks_arrives h ha
  rw [hsc] at h3
  cases h3
  rw [words_iff] at h4 hw
  rw [hw] at h4
  exact h.scopes h4.symm

/-- The code that is stored for an authorization. -/
theorem authorized_code {m0 m1 : Store} {l0 : List (Draw × Ev)}
    {row : ClientRow} {urow : UserRow} {req0 : Request} {uri challenge method nonce : PyStr} {ws : List PyStr}
    {out0 : ORes Response} (hc : m0.findClient row.id = some row)
    (hu : m0.findUser urow.id = some urow) (hv : ValidAuth row urow.user req0 uri challenge method ws)
    (hn : Dict.get req0.data (py! "nonce") = some nonce) (hn1 : nonce ≠ []) (hn2 : nonce.length ≤ 256)
    (huri : 63 ∉ uri ∧ 35 ∉ uri) (h0 : Alone env m0 l0 m1)
    (hx0 : Exec (exProvider.authorize env (exHooks env) req0) (events l0) out0) :
    ∃ r0 loc code, out0 = .ok r0 ∧ r0.status = 303 ∧ location r0 = some loc ∧
      urldecode (urlQuery loc) = visible [(py! "code", some code), (py! "state", Dict.get req0.data (py! "state"))] ∧
      ∃ p ∈ l0, Dict.get m1.codes code =
        some ⟨row.id, urow.id, uri, ws, challenge, method, some nonce, p.1.now + 86400 * 1000000⟩ := by
  have hund : ∀ ev ∈ events l0, Undisturbed env row urow.user ev := by
    intro ev hev
    obtain ⟨pre, post, he⟩ := List.append_of_mem hev
    obtain ⟨a, b, d, n1, n2, -, -, -, h1, hop, hnd, -⟩ := alone_event h0 he
    refine ⟨d, n1, n2, hop, ?_, ?_, hnd.code⟩
    · rw [(alone_find h1).1, hc]
    · rw [(alone_find h1).2]
      show (m0.findUser urow.id).isSome = true
      rw [hu]
      rfl
  obtain ⟨r0, code, data, loc, rfl, hsave, hstored, hst, hloc, hq⟩ := C63_partial env row urow.user req0 uri challenge method nonce
    ws hv hn hn1 hn2 _ _ hx0 hund
  refine ⟨r0, loc, code, rfl, hst, hloc, hq huri.1 huri.2, ?_⟩
  obtain ⟨ops, hw, hpre⟩ := C82_authorize env _ (exHooks_benign env) exProvider req0 _ (exec_partial hx0)
  obtain ⟨pre, post, he⟩ := List.append_of_mem hsave
  rw [storeOps_split he rfl] at hpre
  have hq : storeOps pre = [] ∧ storeOps post = [] := by
    obtain ⟨c, hcc⟩ := hpre
    cases hw with
    | nothing => simp at hcc
    | code _ _ _ _ _ =>
      generalize storeOps pre = a at hcc
      generalize storeOps post = b at hcc
      rcases a with _ | ⟨x, _ | ⟨y, a⟩⟩ <;> simp at hcc
      exact ⟨rfl, hcc.2.1⟩
  obtain ⟨a, b, d, n1, n2, rfl, ha, hb, g1, hop, hnd, g2⟩ := alone_event h0 he
  have hsv := hstored d n1 n2 hop
  have hcodes : m1.codes = n2.codes := alone_codes g2 (fun ev hev => (quiet_of_storeOps hq.2 ev (hb ▸ hev)).1)
  exact ⟨_, List.mem_append_right _ List.mem_cons_self, hcodes ▸ hsv⟩

theorem session_code (hl : FloatLaws env.cr.fe) (hh : HashLengths env.he) {w w1 w' : WStore} {h : List WStep} {l : List (Draw × WEv)}
    {out : ORes Served} (hs : SoundStore w.db) (hk : KeyedStore w.db) (row : ClientRow) (urow : UserRow) (sid : PyStr)
    (hc : w.db.findClient row.id = some row) (hu : w.db.findUser urow.id = some urow) (hsid : (sid, urow.id) ∈ w.sessions)
    (hm : Meanwhile env emailOk w w1 reqs h) (hnl : NotLoggedOut reqs h urow.id)
    (req : WebRequest) (uri challenge method : PyStr) (state : Option PyStr) (ws : List PyStr)
    (ha : AsksForTokens req row urow uri challenge method state ws) (hck : req.cookie = some ⟨urow.id, sid⟩)
    (hv : Visit env emailOk w1 req l w' out) :
    (∀ s ∈ ws, s ∈ standardScopes) ∧ ∃ headers body loc code, out = .ok ⟨.response 303 headers body, none⟩ ∧ (py! "location", loc) ∈ headers ∧
      urldecode (urlQuery loc) = visible [(py! "code", some code), (py! "state", state)] ∧
      ∃ nonce, ∃ p ∈ l, (code, (⟨row.id, urow.id, uri, ws, challenge, method, some nonce, p.1.now + 86400 * 1000000⟩ : AuthCode)) ∈
        w'.db.codes := by
  have hst := stays_meanwhile hm hs hk
  have hkept : (sid, urow.id) ∈ w1.sessions := by
    rcases C133_session (exHooks_benign env) w w1 h hm.history hm.run (sid, urow.id) hsid with h1 | ⟨pre, i, ev, post, he, g1, g2⟩
    · exact h1
    · exact absurd g2 (hnl pre i ev post he g1)
  obtain ⟨r2, lib2, ha2, hal2, hx2, hpass2⟩ := visit_authorize hv ha.toFramed ha.route ha.get hck hkept
    (by rw [hst.findUser]; exact hu)
  obtain ⟨hva, hst2, nonce, hn, hn1, hn2⟩ := ha.valid r2 ha2
  obtain ⟨resp2, loc, code, rfl, hstat, hloc, hquery, p, hp, hcode⟩ := authorized_code (by rw [hst.findClient]; exact hc)
    (by rw [hst.findUser]; exact hu) hva hn hn1 hn2 ha.uri hal2 hx2
  obtain ⟨reply2, hp2, rfl⟩ := hpass2 resp2 rfl (asks_answered hl hh ha hst.sound hv)
  obtain ⟨hds, extra, rfl, hmap, -, -⟩ := hp2
  refine ⟨fun s hs => (hva.scopes s hs).1, hds ++ extra, resp2.body, loc, code, by rw [hstat], ?_, by rw [hquery, hst2], nonce, ?_⟩
  · have hm : (py! "Location", some loc) ∈ resp2.headers := by
      unfold location at hloc
      cases hg : Dict.get resp2.headers (py! "Location") with
      | none => rw [hg] at hloc; cases hloc
      | some v =>
        rw [hg] at hloc
        cases hloc
        exact Dict.mem_of_get hg
    have hm := List.mem_map_of_mem (f := fun kv => (asciiLower kv.1, kv.2)) hm
    rw [← hmap] at hm
    obtain ⟨⟨k, v⟩, h1, h2⟩ := List.mem_map.mp hm
    have e1 : k = py! "location" := (congrArg Prod.fst h2).trans (show asciiLower (py! "Location") = _ by decide)
    have e2 : v = loc := Option.some.inj (congrArg Prod.snd h2)
    rw [← e1, ← e2]
    exact List.mem_append_left _ h1
  · obtain ⟨p', hp', e1⟩ := libDraws_mem hp
    refine ⟨p', hp', ?_⟩
    rw [e1]
    exact Dict.mem_of_get hcode

/-- C134, session: a user who is logged in can authorize a client later, whatever happens meanwhile, if they do not log out. The
browser is sent to the client with a code, which is stored for a day. -/
theorem C134_session (hl : FloatLaws env.cr.fe) (hh : HashLengths env.he) {w w1 w' : WStore} {h : List WStep} {l : List (Draw × WEv)}
    {out : ORes Served} (hs : SoundStore w.db) (hk : KeyedStore w.db) (row : ClientRow) (urow : UserRow) (sid : PyStr)
    (hc : w.db.findClient row.id = some row) (hu : w.db.findUser urow.id = some urow) (hsid : (sid, urow.id) ∈ w.sessions)
    (hm : Meanwhile env emailOk w w1 reqs h) (hnl : NotLoggedOut reqs h urow.id)
    (req : WebRequest) (uri challenge method : PyStr) (state : Option PyStr) (ws : List PyStr)
    (ha : AsksForTokens req row urow uri challenge method state ws) (hck : req.cookie = some ⟨urow.id, sid⟩)
    (hv : Visit env emailOk w1 req l w' out) :
    ∃ headers body loc code, out = .ok ⟨.response 303 headers body, none⟩ ∧ (py! "location", loc) ∈ headers ∧
      urldecode (urlQuery loc) = visible [(py! "code", some code), (py! "state", state)] ∧
      ∃ nonce, ∃ p ∈ l, (code, (⟨row.id, urow.id, uri, ws, challenge, method, some nonce, p.1.now + 86400 * 1000000⟩ : AuthCode)) ∈
        w'.db.codes :=
  (session_code hl hh hs hk row urow sid hc hu hsid hm hnl req uri challenge method state ws ha hck hv).2

/-! ## The whole flow -/

/-- C134: a user who is not logged in opens a valid authorization request of a client. They are sent to the login page; if they log in
with their password, they are sent back to the request; if their browser follows, and they have not logged out, it is sent to the
client with a code and the state; if the client exchanges the code within a day, and nobody has presented the code before, it gets its
tokens; and if it was registered for refresh tokens, it gets one that it can use until it expires, if it has not revoked it and the
user has not logged out. Between these requests any other requests can do anything (`Meanwhile`). -/
theorem C134 (env : OEnv) (hl : FloatLaws env.cr.fe) (hh : HashLengths env.he) (emailOk : PyStr → Bool) (w0 w1 : WStore)
    (l0 : List (Draw × WEv)) (out0 : ORes Served) (row : ClientRow) (urow : UserRow) (start : WebRequest)
    (uri challenge method : PyStr) (state : Option PyStr) (ws : List PyStr)
    (hs : SoundStore w0.db) (hk : KeyedStore w0.db)
    (hc : w0.db.findClient row.id = some row) (hu : w0.db.findUser urow.id = some urow)
    (hemail : w0.db.users.find? (fun u => decide (u.email = urow.email)) = some urow)
    (hstart : AsksForTokens start row urow uri challenge method state ws) (hck : start.cookie = none)
    (h0 : Visit env emailOk w0 start l0 w1 out0) :
    ∃ loc0, out0 = .ok ⟨.response 303 [(py! "location", loc0)] [], none⟩ ∧
      (∃ base, quotePlus locSafe (start.site ++ py! "/auth/login") = .ok base ∧ ∃ q, loc0 = base ++ py! "?" ++ q) ∧
      ∀ reqs1 h1 w1', Meanwhile env emailOk w1 w1' reqs1 h1 →
      ∀ login l1 w2 out1, LogsIn emailOk login urow (urlQuery loc0) → Visit env emailOk w1' login l1 w2 out1 →
      ∃ ck, out1 = .ok ⟨.response 303 [(py! "location", start.url)] [], some ck⟩ ∧
      ∀ reqs2 h2 w2', Meanwhile env emailOk w2 w2' reqs2 h2 → NotLoggedOut reqs2 h2 urow.id →
      ∀ l2 w3 out2, Visit env emailOk w2' { start with cookie := some ck } l2 w3 out2 →
      ∃ headers body loc code, out2 = .ok ⟨.response 303 headers body, none⟩ ∧ (py! "location", loc) ∈ headers ∧
        urldecode (urlQuery loc) = visible [(py! "code", some code), (py! "state", state)] ∧
      ∀ reqs3 h3 w3', Meanwhile env emailOk w3 w3' reqs3 h3 → NotPresented reqs3 h3 code →
      ∀ exch l3 w4 out3, TokenCall exch → (∀ r, ArrivesAs exch none r → Exchanges env r row code uri challenge method) →
        Visit env emailOk w3' exch l3 w4 out3 → (∀ p ∈ l2, ∀ q ∈ l3, q.1.now < p.1.now + 86400 * 1000000) →
      ∃ r3 reply3, out3 = .ok ⟨reply3, none⟩ ∧ PassedOn r3 reply3 ∧
        ServedExchange env w3'.db (libDraws l3) w4.db row urow code ws r3 ∧
      (py! "refresh_token" ∈ row.grantTypes → ∃ d, ∃ rt : RefreshTok, JsonBody env.cr.fe r3 d ∧
        Dict.get d (py! "refresh_token") = some (.str rt.token) ∧
        ((∀ x ∈ w3'.db.refresh, ¬ (x.clientId = row.id ∧ x.userId = urow.id)) →
          rt.scopes = ws ∧ ∃ p ∈ l3, rt.expiration = p.1.now + 14 * 86400 * 1000000) ∧
      ∀ reqs4 h4 w4', Meanwhile env emailOk w4 w4' reqs4 h4 → NotRevoked reqs4 h4 rt.token row.id → NotLoggedOut reqs4 h4 urow.id →
      ∀ again l4 w5 out4, TokenCall again → (∀ r, ArrivesAs again none r → Refreshes r row rt.token rt.scopes []) →
        Visit env emailOk w4' again l4 w5 out4 → (∀ q ∈ l4, q.1.now < rt.expiration) →
      ∃ r4 reply4 scopes, out4 = .ok ⟨reply4, none⟩ ∧ PassedOn r4 reply4 ∧
        ServedRefresh env w4'.db (libDraws l4) w5.db row urow scopes r4 ∧ ∀ s, s ∈ scopes ↔ s ∈ rt.scopes ∧ s ∈ row.scopes) := by
  obtain ⟨sv0, rfl⟩ := asks_answered hl hh hstart hs h0
  -- the first request performs no operation
  have hnil : l0 = [] := by
    have hx := h0.runs
    unfold app at hx
    rw [hck] at hx
    dsimp only at hx
    unfold view at hx
    rw [hstart.route] at hx
    dsimp only at hx
    rw [if_pos (by unfold isGet; rw [hstart.get]; decide)] at hx
    unfold authorizeGet at hx
    dsimp only at hx
    split at hx <;> exact List.map_eq_nil_iff.mp (wexec_done hx).1
  have hst1 := stays_visit h0 (asks_tame hstart) hs hk
  obtain ⟨hcookie, base, loc0, hbase, hq, hreply, hback⟩ := C72_login_detour start _ sv0 hstart.route hstart.get h0.runs
    (fun _ _ _ h => by rw [hnil] at h; cases h) hstart.site.1 hstart.site.2 hstart.url.1
  refine ⟨loc0, ?_, ⟨base, hbase, hq⟩, ?_⟩
  · obtain ⟨reply, cookie⟩ := sv0
    cases hcookie
    cases hreply
    rfl
  intro reqs1 h1 w1' hm1 login l1 w2 out1 hlog hv1
  have hst1' := stays_meanwhile hm1 hst1.sound hst1.keyed
  obtain ⟨hdb, sid, loc1, hsid, rfl⟩ := visit_login hv1 hlog (by rw [hst1'.users, hst1.users]; exact hemail)
  obtain ⟨loc', -, hr1, hsame⟩ := hback login _ _ _ hlog.query hv1.runs rfl
  cases hr1
  refine ⟨⟨urow.id, sid⟩, by rw [hsame hstart.url.2], ?_⟩
  have hc2 : w2.db.findClient row.id = some row := by rw [hdb, hst1'.findClient, hst1.findClient, hc]
  have hu2 : w2.db.findUser urow.id = some urow := by rw [hdb, hst1'.findUser, hst1.findUser, hu]
  have hs2 : SoundStore w2.db := by rw [hdb]; exact hst1'.sound
  have hk2 : KeyedStore w2.db := by rw [hdb]; exact hst1'.keyed
  intro reqs2 h2 w2' hm2 hnl2 l2 w3 out2 hv2
  have hst2' := stays_meanwhile hm2 hs2 hk2
  have hstart2 := asks_cookie hstart (some ⟨urow.id, sid⟩)
  obtain ⟨hsup, headers, body, loc, code, ho2, hloc, hquery, nonce, p, hp, hcode⟩ := session_code hl hh hs2 hk2 row urow sid hc2 hu2 hsid hm2
    hnl2 _ uri challenge method state ws hstart2 rfl hv2
  refine ⟨headers, body, loc, code, ho2, hloc, hquery, ?_⟩
  have hst3 := stays_visit hv2 (asks_tame hstart2) hst2'.sound hst2'.keyed
  have hc3 : w3.db.findClient row.id = some row := by rw [hst3.findClient, hst2'.findClient, hc2]
  have hu3 : w3.db.findUser urow.id = some urow := by rw [hst3.findUser, hst2'.findUser, hu2]
  intro reqs3 h3 w3' hm3 hnp exch l3 w4 out3 htc hex hv3 hday
  have hst3' := stays_meanwhile hm3 hst3.sound hst3.keyed
  obtain ⟨r3, reply3, ho3, hpass3, hserved⟩ := C134_code hl hh hst3.sound hst3.keyed row urow code _ hc3 hu3 hcode rfl rfl hsup hm3 hnp exch
    htc hex hv3 (hday p hp)
  refine ⟨r3, reply3, ho3, hpass3, hserved, ?_⟩
  intro hreg
  obtain ⟨d, access, -, hd, -, -, -, -, -, href, -⟩ := hserved
  obtain ⟨t, rt, hdt, hfind, e1, e2, e3⟩ := href hreg
  have ht : rt.token = t := by
    unfold Store.findRefresh at hfind
    have := List.find?_some hfind
    exact of_decide_eq_true this
  have hrt := List.mem_of_find?_eq_some hfind
  refine ⟨d, rt, hd, by rw [ht]; exact hdt, ?_, ?_⟩
  · intro hnone
    rcases e3 with e3 | ⟨-, e4, q, hq1, hq2⟩
    · exact absurd ⟨e1, e2⟩ (hnone rt e3)
    · obtain ⟨q', hq', e⟩ := libDraws_mem hq1
      exact ⟨e4, q', hq', by rw [e]; exact hq2⟩
  have hst4 := stays_visit hv3 ⟨htc.names, fun hr => by rw [htc.route] at hr; cases hr⟩ hst3'.sound hst3'.keyed
  intro reqs4 h4 w4' hm4 hnr hnl4 again l4 w5 out4 htc4 hre hv4 hexp
  obtain ⟨r4, reply4, scopes, ho4, hpass4, hserved4, hsc, -⟩ := C134_refresh hl hst4.sound hst4.keyed row urow rt []
    (by rw [hst4.findClient, hst3'.findClient, hc3]) (by rw [hst4.findUser, hst3'.findUser, hu3]) hrt e1 e2 hm4 hnr hnl4 again htc4 hre hv4
    hexp
  exact ⟨r4, reply4, scopes, ho4, hpass4, hserved4, hsc rfl⟩

/-! ### The hypotheses are satisfiable -/

/-- What the other client does meanwhile: it tries to revoke the refresh token. -/
def lastSim := keepSim (exTurn 0 4 0)

/-- Then the first client uses it. -/
def lastAgain : WebRequest := { webExchange with body := by! "grant_type=refresh_token&refresh_token=rt" }

def lastTour := tour 6 2 lastSim.2.1 lastAgain

theorem keep_sound : SoundStore keepStore.db := by
  refine ⟨⟨?_, ?_, ?_, ?_⟩, ?_, ?_⟩
  · intro row hrow
    cases List.mem_singleton.mp hrow
    exact exUser_plain
  · have : ∀ row ∈ keepStore.db.clients, (∀ c ∈ row.id, c < 128) ∧ ∀ s ∈ row.scopes, ∀ c ∈ s, c < 128 := by decide +kernel
    intro row hrow
    exact ⟨encodable_ascii (this row hrow).1, fun s hs => encodable_ascii ((this row hrow).2 s hs)⟩
  · have : ∀ kv ∈ keepStore.db.codes, ∀ s ∈ kv.2.scopes, ∀ c ∈ s, c < 128 := by decide +kernel
    intro code ac h s hs
    exact encodable_ascii (this _ h s hs)
  · intro rt h
    cases List.mem_singleton.mp h
    exact encodable_ascii (s := py! "rt") (by decide)
  · have : ∀ kv ∈ keepStore.db.codes, kv.2.scopes ≠ [] := by decide +kernel
    exact fun code ac h => this _ h
  · intro rt h
    cases List.mem_singleton.mp h
    rfl

theorem keep_tame (i : Nat) : Tame (keepReqs i) := by
  rcases i with _ | _ | i
  · exact ⟨by intro kv hkv; cases List.mem_singleton.mp hkv; decide, nofun⟩
  · exact ⟨by intro kv hkv; cases List.mem_singleton.mp hkv; decide, nofun⟩
  · exact ⟨nofun, nofun⟩

/-- Is this an operation of the request 0 that looks for another client than the first? -/
def isOther : WStep → Bool
  | (0, ⟨.lib (.findClient id), _⟩) => decide (id ≠ py! "c1")
  | (0, _) => true
  | _ => false

/-- C134 applies to this history: the attempt of the other client is answered with 200, and the token still works. -/
example : webStatus (lastSim.2.2 0) = some 200 ∧
    ∃ r reply scopes, wout lastTour.2.2 = some (.ok ⟨reply, none⟩) ∧ PassedOn r reply ∧
      ServedRefresh toyEnv lastSim.2.1.db (libDraws lastTour.1) lastTour.2.1.db exClient exUser scopes r ∧
      ∀ s, s ∈ scopes ↔ s ∈ [py! "openid"] := by
  refine ⟨by decide +kernel, ?_⟩
  obtain ⟨sv, o, v⟩ : ∃ sv, wout lastTour.2.2 = some (.ok sv) ∧
      Visit toyEnv (fun _ => true) lastSim.2.1 lastAgain lastTour.1 lastTour.2.1 (.ok sv) :=
    tour_visit rfl (by decide +kernel : tourOk 6 2 lastSim.2.1 lastAgain = true)
  have hother : lastSim.1.all isOther = true := by decide +kernel
  have hzero : ∀ pre i ev post, lastSim.1 = pre ++ (i, ev) :: post → i = 0 := by
    intro pre i ev post he
    have hm : isOther (i, ev) = true := List.all_eq_true.mp hother _ (by rw [he]; exact List.mem_append_right _ List.mem_cons_self)
    rcases i with _ | i
    · rfl
    · simp [isOther] at hm
  have hrt : (⟨py! "rt", py! "c1", py! "u1", [py! "openid"], 9000000⟩ : RefreshTok) ∈ keepStore.db.refresh := List.mem_cons_self
  obtain ⟨r, reply, scopes, ho, h1, h2, h3, -⟩ := C134_refresh (reqs := keepReqs) toyFloat_laws keep_sound ⟨by decide +kernel, by decide +kernel⟩
    exClient exUser _ [] rfl rfl hrt rfl rfl
    ⟨fun i => (wsim_exec toyEnv (exTurn 0 4 0) keepStore
      (fun i => app toyEnv (exHooks toyEnv) (fun _ => true) (keepReqs i)) i).2, wsim_onlyRequests _ _ _ _, keep_tame⟩
    (by
      rintro pre i ev post q he - ⟨-, c, -, -, hm, -⟩
      have hm : isOther (i, ⟨.lib (.findClient (py! "c1")), .ok (some c)⟩) = true :=
        List.all_eq_true.mp hother _ (by
          show _ ∈ lastSim.1
          rw [show lastSim.1 = pre ++ (i, ev) :: post from he]
          exact List.mem_append_left _ hm)
      cases hzero pre i ev post he
      simp [isOther] at hm)
    (by
      intro pre i ev post he hr
      cases hzero pre i ev post he
      cases hr)
    lastAgain (tour_call (body := lastAgain.body)) (by
      intro r hr
      have hd := arrived_data hr
      have hget : [py! "grant_type", py! "refresh_token", py! "scope"].map (Dict.get r.data) =
          [some (py! "refresh_token"), some (py! "rt"), none] := by
        rw [hd]
        decide +kernel
      simp only [List.map_cons, List.map_nil, List.cons.injEq, and_true] at hget
      obtain ⟨g1, g2, g3⟩ := hget
      exact ⟨g1, by decide, ⟨.basic, tour_identifies (body := lastAgain.body) hr⟩, ⟨g2, by decide⟩, Or.inl ⟨g3, rfl⟩, nofun⟩)
    v (by
      intro p hp
      rw [List.eq_of_mem_replicate (wsolo_draws p hp)]
      decide)
  cases ho
  refine ⟨r, reply, scopes, o, h1, h2, fun s => ?_⟩
  rw [h3 rfl s]
  refine ⟨fun h => h.1, fun h => ⟨h, ?_⟩⟩
  cases List.mem_singleton.mp h
  decide

end Psion.Props
