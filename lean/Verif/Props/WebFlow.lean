import Verif.Example.WebFlowLemmas
import Verif.Props.Stack

/-!
# Property C105: a client gets its tokens
-/

namespace Psion.Props

open Psion Spec Example

/-- A `GET` request to the authorization endpoint, which is valid if the user of the row is logged in, and carries a nonce. Its URL
consists of characters that are sent as they are. -/
structure AsksForTokens (req : WebRequest) (row : ClientRow) (urow : UserRow) (uri challenge method : PyStr) (state : Option PyStr)
    (ws : List PyStr) : Prop extends Framed req where
  route : req.route = .authorize
  get : req.method = py! "GET"
  site : 63 ∉ req.site ∧ 35 ∉ req.site
  url : req.url ≠ [] ∧ ∀ c ∈ req.url, c < 128 ∧ c ≠ 32 ∧ (alwaysSafe c || locSafe c) = true
  valid : ∀ r, ArrivesAs req (some urow.user) r → ValidAuth row urow.user r uri challenge method ws ∧
    Dict.get r.data (py! "state") = state ∧ ∃ n, Dict.get r.data (py! "nonce") = some n ∧ n ≠ [] ∧ n.length ≤ 256
  scopes : ws ≠ []
  uri : 63 ∉ uri ∧ 35 ∉ uri

theorem asks_arrives {req : WebRequest} {row : ClientRow} {urow : UserRow} {uri challenge method : PyStr} {state : Option PyStr}
    {ws : List PyStr} (h : AsksForTokens req row urow uri challenge method state ws) {user : Option User} {r : Request}
    (ha : ArrivesAs req user r) :
    (∃ n, Dict.get r.data (py! "nonce") = some n ∧ n ≠ [] ∧ n.length ≤ 256) ∧
      ∃ text, Dict.get r.data (py! "scope") = some text ∧ Words text ws := by
  have ha' : ArrivesAs req (some urow.user) { r with user := some urow.user } := ⟨ha.method, ha.query, ha.body, rfl, ha.headers⟩
  obtain ⟨h1, -, h2⟩ := h.valid _ ha'
  obtain ⟨text, h3, -, h4⟩ := h1.scope
  exact ⟨h2, text, h3, h4⟩

theorem asks_cookie {req : WebRequest} {row : ClientRow} {urow : UserRow} {uri challenge method : PyStr} {state : Option PyStr}
    {ws : List PyStr} (h : AsksForTokens req row urow uri challenge method state ws) (ck : Option Cookie) :
    AsksForTokens { req with cookie := ck } row urow uri challenge method state ws :=
  ⟨⟨h.names, h.plain, h.host⟩, h.route, h.get, h.site, h.url,
    fun r ha => h.valid r ⟨ha.method, ha.query, ha.body, ha.user, ha.headers⟩, h.scopes, h.uri⟩

theorem asks_answered {env : OEnv} (hl : FloatLaws env.cr.fe) (hh : HashLengths env.he) {emailOk : PyStr → Bool} {req : WebRequest}
    {row : ClientRow} {urow : UserRow} {uri challenge method : PyStr} {state : Option PyStr}
    {ws : List PyStr} (h : AsksForTokens req row urow uri challenge method state ws) {w w' : WStore} (hs : SoundStore w.db)
    {l : List (Draw × WEv)} {out : ORes Served} (hv : Visit env emailOk w req l w' out) : ∃ sv, out = .ok sv := by
  obtain ⟨h1, h2⟩ := visit_history hv
  have ht : Tame req := by
    refine ⟨h.names, fun _ user r s ha hsc hw => ?_⟩
    obtain ⟨-, text, h3, h4⟩ := asks_arrives h ha
    rw [hsc] at h3
    cases h3
    rw [words_iff] at h4 hw
    rw [hw] at h4
    exact h.scopes h4.symm
  have hp : Proper req := by
    refine ⟨⟨h.names, h.plain, h.host, fun _ => by rw [h.get]; decide, ?_, ?_⟩, fun _ _ user r ha => (asks_arrives h ha).1⟩
    · intro hr
      rw [h.route] at hr
      cases hr
    · intro hr
      rw [h.route] at hr
      cases hr
  refine C90_partial env hl hh emailOk (fun _ => req) w w' (asSteps l) hs (fun _ => ht) h2 hv.alone 0 hp hv.prompt out ?_
  rw [h1]
  exact hv.runs

/-- C105: a user who is not logged in opens a valid authorization request of a client. They are sent to the login page; if they log in
with their password, they are sent back to the request; if their browser follows, it is sent to the client with a code and the state;
if the client exchanges the code within a day, it gets its tokens; and if it was registered for refresh tokens and had none for this
user, it can use the one it got for two weeks, and gets an access token with the same scopes. Nothing disturbs these requests, and
nothing happens in between. -/
theorem C105 (env : OEnv) (hl : FloatLaws env.cr.fe) (hh : HashLengths env.he) (emailOk : PyStr → Bool) (w0 w1 : WStore)
    (l0 : List (Draw × WEv)) (out0 : ORes Served) (row : ClientRow) (urow : UserRow) (start : WebRequest)
    (uri challenge method : PyStr) (state : Option PyStr) (ws : List PyStr)
    (hs : SoundStore w0.db) (hdist : (w0.db.refresh.map RefreshTok.token).Nodup)
    (hc : w0.db.findClient row.id = some row) (hu : w0.db.findUser urow.id = some urow)
    (hemail : w0.db.users.find? (fun u => decide (u.email = urow.email)) = some urow)
    (hnew : ∀ x ∈ w0.db.refresh, ¬ (x.clientId = row.id ∧ x.userId = urow.id))
    (hstart : AsksForTokens start row urow uri challenge method state ws) (hck : start.cookie = none)
    (h0 : Visit env emailOk w0 start l0 w1 out0) :
    ∃ loc0, out0 = .ok ⟨.response 303 [(py! "location", loc0)] [], none⟩ ∧
      (∃ base, quotePlus locSafe (start.site ++ py! "/auth/login") = .ok base ∧ ∃ q, loc0 = base ++ py! "?" ++ q) ∧
      ∀ login l1 w2 out1, LogsIn emailOk login urow (urlQuery loc0) → Visit env emailOk w1 login l1 w2 out1 →
      ∃ ck, out1 = .ok ⟨.response 303 [(py! "location", start.url)] [], some ck⟩ ∧
      ∀ l2 w3 out2, Visit env emailOk w2 { start with cookie := some ck } l2 w3 out2 →
      ∃ headers body loc code, out2 = .ok ⟨.response 303 headers body, none⟩ ∧ (py! "location", loc) ∈ headers ∧
        urldecode (urlQuery loc) = visible [(py! "code", some code), (py! "state", state)] ∧
      ∀ exch l3 w4 out3, TokenCall exch → (∀ r, ArrivesAs exch none r → Exchanges env r row code uri challenge method) →
        Visit env emailOk w3 exch l3 w4 out3 → (∀ p ∈ l2, ∀ q ∈ l3, q.1.now < p.1.now + 86400 * 1000000) →
      ∃ r3 reply3, out3 = .ok ⟨reply3, none⟩ ∧ PassedOn r3 reply3 ∧
        ServedExchange env w3.db (libDraws l3) w4.db row urow code ws r3 ∧
      (py! "refresh_token" ∈ row.grantTypes → ∃ d t, JsonBody env.cr.fe r3 d ∧ Dict.get d (py! "refresh_token") = some (.str t) ∧
      ∀ again l4 w5 out4, TokenCall again → (∀ r, ArrivesAs again none r → Refreshes r row t ws []) →
        Visit env emailOk w4 again l4 w5 out4 → (∀ p ∈ l3, ∀ q ∈ l4, q.1.now < p.1.now + 14 * 86400 * 1000000) →
      ∃ r4 reply4 scopes, out4 = .ok ⟨reply4, none⟩ ∧ PassedOn r4 reply4 ∧
        ServedRefresh env w4.db (libDraws l4) w5.db row urow scopes r4 ∧ ∀ s, s ∈ scopes ↔ s ∈ ws) := by
  obtain ⟨sv0, rfl⟩ := asks_answered hl hh hstart hs h0
  -- the first request performs no operation
  have hnil : l0 = [] := by
    have hx := h0.runs
    unfold app at hx
    rw [hck] at hx
    dsimp only at hx
    unfold view at hx
    rw [hstart.route] at hx
    dsimp only at hx
    rw [if_pos (by unfold isGet; rw [hstart.get]; decide)] at hx
    unfold authorizeGet at hx
    dsimp only at hx
    split at hx <;> exact List.map_eq_nil_iff.mp (wexec_done hx).1
  subst hnil
  have hw1 : w1 = w0 := by cases h0.alone; rfl
  subst hw1
  obtain ⟨hcookie, base, loc0, hbase, hq, hreply, hback⟩ := C72_login_detour start _ sv0 hstart.route hstart.get h0.runs
    (fun _ _ _ h => by cases h) hstart.site.1 hstart.site.2 hstart.url.1
  refine ⟨loc0, ?_, ⟨base, hbase, hq⟩, ?_⟩
  · obtain ⟨reply, cookie⟩ := sv0
    cases hcookie
    cases hreply
    rfl
  intro login l1 w2 out1 hlog h1
  obtain ⟨hdb, sid, loc1, hsid, rfl⟩ := visit_login h1 hlog hemail
  obtain ⟨loc', -, hr1, hsame⟩ := hback login _ _ _ hlog.query h1.runs rfl
  cases hr1
  refine ⟨⟨urow.id, sid⟩, by rw [hsame hstart.url.2], ?_⟩
  intro l2 w3 out2 h2
  have hstart2 := asks_cookie hstart (some ⟨urow.id, sid⟩)
  obtain ⟨r2, lib2, ha2, hal2, hx2, hpass2⟩ := visit_authorize h2 hstart2.toFramed hstart2.route hstart2.get rfl hsid
    (by rw [hdb]; exact hu)
  obtain ⟨hv, hst, nonce, hn, hn1, hn2⟩ := hstart2.valid r2 ha2
  have hrow := List.mem_of_find?_eq_some hc
  have hurow := List.mem_of_find?_eq_some hu
  obtain ⟨resp2, loc, code, rfl, hstat, hloc, hquery, hflow⟩ := C84_flow env hl hh w2.db w3.db _ row urow r2 uri challenge method nonce
    ws lib2 (by rw [hdb]; exact hc) (hs.plain.clients row hrow).1 (hs.plain.clients row hrow).2 (by rw [hdb]; exact hu)
    (hs.plain.users urow hurow) (by rw [hdb]; exact ⟨hdist, hs.plain.refresh⟩) (by rw [hdb]; exact hnew) hv hstart.scopes hn hn1 hn2
    hstart.uri hal2 hx2
  obtain ⟨reply2, hp2, rfl⟩ := hpass2 resp2 rfl (asks_answered hl hh hstart2 (by rw [hdb]; exact hs) h2)
  obtain ⟨hds, extra, rfl, hmap, -, -⟩ := hp2
  refine ⟨hds ++ extra, resp2.body, loc, code, by rw [hstat], ?_, by rw [hquery, hst], ?_⟩
  · have hm : (py! "Location", some loc) ∈ resp2.headers := by
      unfold location at hloc
      cases hg : Dict.get resp2.headers (py! "Location") with
      | none => rw [hg] at hloc; cases hloc
      | some v =>
        rw [hg] at hloc
        cases hloc
        exact Dict.mem_of_get hg
    have hm := List.mem_map_of_mem (f := fun kv => (asciiLower kv.1, kv.2)) hm
    rw [← hmap] at hm
    obtain ⟨⟨k, v⟩, h1, h2⟩ := List.mem_map.mp hm
    have e1 : k = py! "location" := (congrArg Prod.fst h2).trans (show asciiLower (py! "Location") = _ by decide)
    have e2 : v = loc := Option.some.inj (congrArg Prod.snd h2)
    rw [← e1, ← e2]
    exact List.mem_append_left _ h1
  intro exch l3 w4 out3 htc hex h3 hday
  obtain ⟨r3, lib3, ha3, hal3, hx3, hpass3⟩ := visit_token h3 htc
  obtain ⟨resp3, rfl, hserved, hmore⟩ := hflow r3 _ w4.db lib3 (hex r3 ha3) hal3 (libDraws_prompt h3.prompt) (by
    intro p hp q hq
    obtain ⟨p', hp', e1⟩ := libDraws_mem hp
    obtain ⟨q', hq', e2⟩ := libDraws_mem hq
    rw [← e1, ← e2]
    exact hday p' hp' q' hq') hx3
  have h200 : resp3.status = 200 := by
    obtain ⟨d, access, h, -⟩ := hserved
    exact h
  obtain ⟨reply3, hp3, rfl⟩ := hpass3 resp3 rfl h200
  refine ⟨resp3, reply3, rfl, hp3, hserved, ?_⟩
  intro hreg
  obtain ⟨d, t, hd, hdt, hagain⟩ := hmore hreg
  refine ⟨d, t, hd, hdt, ?_⟩
  intro again l4 w5 out4 htc4 hre h4 hweeks
  obtain ⟨r4, lib4, ha4, hal4, hx4, hpass4⟩ := visit_token h4 htc4
  obtain ⟨resp4, scopes, rfl, hserved4, hsc⟩ := hagain r4 _ w5.db lib4 (hre r4 ha4) hal4 (libDraws_prompt h4.prompt) (by
    intro p hp q hq
    obtain ⟨p', hp', e1⟩ := libDraws_mem hp
    obtain ⟨q', hq', e2⟩ := libDraws_mem hq
    rw [← e1, ← e2]
    exact hweeks p' hp' q' hq') hx4
  have h200 : resp4.status = 200 := by
    obtain ⟨d, access, t, rt, h, -⟩ := hserved4
    exact h
  obtain ⟨reply4, hp4, rfl⟩ := hpass4 resp4 rfl h200
  exact ⟨resp4, reply4, scopes, rfl, hp4, hserved4, hsc⟩

/-! ### The hypotheses are satisfiable -/

/-- A request to the application alone: its operations with these draws, the database afterwards, and what is left of it. -/
def wsolo {α : Type} (env : OEnv) : List Draw → WStore → WProg α → List (Draw × WEv) × WStore × WProg α
  | d :: ds, w, .op o k =>
    ((d, ⟨o, (wOp env d w o).2⟩) :: (wsolo env ds (wOp env d w o).1 (k (wOp env d w o).2)).1,
      (wsolo env ds (wOp env d w o).1 (k (wOp env d w o).2)).2)
  | _, w, p => ([], w, p)

/-- Are all draws new? -/
def wnew {α : Type} (env : OEnv) : List Draw → WStore → WProg α → Bool
  | d :: ds, w, .op o k => newWeb w d o && wnew env ds (wOp env d w o).1 (k (wOp env d w o).2)
  | _, _, _ => true

/-- The outcome of a finished request. -/
def wout {α : Type} : WProg α → Option α
  | .done a => some a
  | _ => none

theorem wsolo_operates {α : Type} {env : OEnv} {ds : List Draw} {w : WStore} {p : WProg α} (h : wnew env ds w p = true) :
    Operates env w (asSteps (wsolo env ds w p).1) (wsolo env ds w p).2.1 := by
  induction ds generalizing w p with
  | nil => cases p <;> exact .nil w
  | cons d ds ih =>
    cases p with
    | done r => exact .nil w
    | op o k =>
      simp only [wnew, Bool.and_eq_true] at h
      exact .step _ _ _ _ _ _ _ rfl (newWeb_iff h.1) (ih h.2)

theorem wsolo_exec {α : Type} {env : OEnv} {ds : List Draw} {w : WStore} {p : WProg α} {r : α}
    (h : wout (wsolo env ds w p).2.2 = some r) : WExec p ((wsolo env ds w p).1.map Prod.snd) r := by
  induction ds generalizing w p with
  | nil =>
    cases p with
    | done x => cases h; exact .done _
    | op o k => cases h
  | cons d ds ih =>
    cases p with
    | done x => cases h; exact .done _
    | op o k => exact .op o k _ _ _ (ih h)

theorem wsolo_draws {α : Type} {env : OEnv} {ds : List Draw} {w : WStore} {p : WProg α} :
    ∀ q ∈ (wsolo env ds w p).1, q.1 ∈ ds := by
  induction ds generalizing w p with
  | nil =>
    intro q hq
    cases p <;> cases hq
  | cons d ds ih =>
    intro q hq
    cases p with
    | done x => cases hq
    | op o k =>
      rcases List.mem_cons.mp hq with rfl | hq
      · exact List.mem_cons_self
      · exact List.mem_cons_of_mem _ (ih q hq)

/-- The application serves this request, with `n` draws of the letter `k`. -/
def tour (n : Nat) (k : Fin 64) (w : WStore) (req : WebRequest) : List (Draw × WEv) × WStore × WProg (ORes Served) :=
  wsolo toyEnv (List.replicate n (exDraw k)) w (app toyEnv (exHooks toyEnv) (fun _ => true) req)

/-- Are the draws new, and is the request answered? -/
def tourOk (n : Nat) (k : Fin 64) (w : WStore) (req : WebRequest) : Bool :=
  wnew toyEnv (List.replicate n (exDraw k)) w (app toyEnv (exHooks toyEnv) (fun _ => true) req) &&
    (match wout (tour n k w req).2.2 with | some (.ok _) => true | _ => false)

theorem tour_visit {n : Nat} {k : Fin 64} {w : WStore} {req : WebRequest} {t} (ht : t = tour n k w req)
    (h : tourOk n k w req = true) :
    ∃ sv, wout t.2.2 = some (.ok sv) ∧ Visit toyEnv (fun _ => true) w req t.1 t.2.1 (.ok sv) := by
  subst ht
  obtain ⟨h1, h2⟩ := Bool.and_eq_true_iff.mp h
  split at h2
  · rename_i sv hsv
    refine ⟨sv, hsv, wsolo_operates h1, promptFor_stamps ?_, wsolo_exec hsv⟩
    intro q hq
    obtain ⟨p, hp, rfl⟩ := List.mem_map.mp hq
    rw [List.eq_of_mem_replicate (wsolo_draws p hp)]
    exact ⟨rfl, rfl⟩
  · cases h2

/-- The five requests of the flow. -/
def tourStart : WebRequest := webGet .authorize (py! "/connect/authorize") webParams none

def tour0 := tour 4 0 ⟨exStore, []⟩ tourStart

/-- Where a finished request redirects to. -/
def tourLocation (p : WProg (ORes Served)) : PyStr :=
  match wout p with
  | some (.ok ⟨.response _ [(_, loc)] _, _⟩) => loc
  | _ => []

theorem webLogin_query (q p : PyStr) : (webLogin q p).query = q := rfl

def tourLogin : WebRequest := webLogin (urlQuery (tourLocation tour0.2.2)) (py! "correct horse")

def tour1 := tour 4 2 tour0.2.1 tourLogin

def tour2 := tour 4 0 tour1.2.1 { tourStart with cookie := some webCookie }

def tour3 := tour 13 1 tour2.2.1 webExchange

def tourAgain : WebRequest := { webExchange with body := by! "grant_type=refresh_token&refresh_token=" ++ List.replicate 32 98 }

def tour4 := tour 6 2 tour3.2.1 tourAgain

theorem arrived_data {req : WebRequest} {user : Option User} {r : Request} (h : ArrivesAs req user r) :
    r.data = Dict.update (urldecode (urlQuery req.url)) (urldecode (toStringB req.body)) := by
  unfold Request.data Request.form
  rw [h.query, h.body]

theorem tourStart_asks : AsksForTokens tourStart exClient exUser (py! "https://c/cb") toyVerifier (py! "plain") (some (py! "s"))
    [py! "openid"] := by
  refine ⟨⟨nofun, ⟨encodable_ascii (by decide), encodable_ascii (by decide +kernel), encodable_ascii (by decide +kernel)⟩,
    fun h => absurd (urlRefused_iff.mpr h) (by decide +kernel)⟩, rfl, rfl, by decide, ⟨by decide +kernel, by decide +kernel⟩, ?_, by decide,
    by decide⟩
  intro r hr
  have hd := arrived_data hr
  have hget : [py! "response_type", py! "client_id", py! "redirect_uri", py! "code_challenge", py! "code_challenge_method",
        py! "scope", py! "state", py! "nonce"].map (Dict.get r.data) =
      [some (py! "code"), some (py! "c1"), some (py! "https://c/cb"), some toyVerifier, some (py! "plain"),
        some (py! "openid"), some (py! "s"), some (py! "n")] := by
    rw [hd]
    decide +kernel
  simp only [List.map_cons, List.map_nil, List.cons.injEq, and_true] at hget
  obtain ⟨g1, g2, g3, g4, g5, g6, g7, g8⟩ := hget
  refine ⟨⟨hr.user, g1, by decide, g2, by decide, g3, by decide, by decide, g4, by decide, by decide, g5, Or.inl rfl,
    ⟨_, g6, by decide, words_iff.mpr (by decide +kernel)⟩, by decide, ?_⟩, g7, _, g8, by decide, by decide⟩
  intro k v hk
  rw [hd] at hk
  have hall : (Dict.update (urldecode (urlQuery tourStart.url)) (urldecode (toStringB tourStart.body))).all
      (fun kv => plainText kv.2) = true := by decide +kernel
  have := List.all_eq_true.mp hall _ (Dict.mem_of_get hk)
  exact encodable_ascii fun c hc => of_decide_eq_true (List.all_eq_true.mp this c hc)

theorem tour_call {body : Bytes} : TokenCall { webExchange with body } :=
  ⟨⟨by intro kv hkv; cases List.mem_singleton.mp hkv; decide,
    ⟨encodable_ascii (show ∀ c ∈ webExchange.site, c < 128 by decide),
      encodable_ascii (show ∀ c ∈ webExchange.url, c < 128 by decide),
      encodable_ascii (show ∀ c ∈ webExchange.query, c < 128 by decide)⟩,
    fun h => absurd (urlRefused_iff.mpr h) (show ¬ urlRefused webExchange.url = true by decide +kernel)⟩, rfl, rfl, rfl⟩

theorem tour_identifies {body : Bytes} {r : Request} (h : ArrivesAs { webExchange with body } none r) :
    Identifies r .basic (py! "c1") exClient.client := by
  refine ⟨.basic _ _ (credentials_iff.mp ?_) (by decide) (by decide), rfl, Or.inl rfl⟩
  have e : authHeader r.headers = authHeader (toyPost []).headers := by
    unfold authHeader
    rw [h.headers, h.headers]
    rfl
  unfold getBasicAuthorization
  rw [e]
  exact credentials_iff.mpr (by
    have := (toyPost_identifies []).presents
    cases this with
    | basic _ _ h => exact h)

/-- The flow of the example: all requests are answered, and C105 applies to them. -/
example : ∃ r3 r4 reply3 reply4 scopes, wout tour3.2.2 = some (.ok ⟨reply3, none⟩) ∧ wout tour4.2.2 = some (.ok ⟨reply4, none⟩) ∧
    PassedOn r3 reply3 ∧ PassedOn r4 reply4 ∧
    ServedExchange toyEnv tour2.2.1.db (libDraws tour3.1) tour3.2.1.db exClient exUser (List.replicate 64 97) [py! "openid"] r3 ∧
    ServedRefresh toyEnv tour3.2.1.db (libDraws tour4.1) tour4.2.1.db exClient exUser scopes r4 ∧
    ∀ s, s ∈ scopes ↔ s ∈ [py! "openid"] := by
  obtain ⟨sv0, o0, v0⟩ : ∃ sv, wout tour0.2.2 = some (.ok sv) ∧
      Visit toyEnv (fun _ => true) ⟨exStore, []⟩ tourStart tour0.1 tour0.2.1 (.ok sv) :=
    tour_visit rfl (by decide +kernel : tourOk 4 0 ⟨exStore, []⟩ tourStart = true)
  obtain ⟨sv1, o1, v1⟩ : ∃ sv, wout tour1.2.2 = some (.ok sv) ∧
      Visit toyEnv (fun _ => true) tour0.2.1 tourLogin tour1.1 tour1.2.1 (.ok sv) :=
    tour_visit rfl (by decide +kernel : tourOk 4 2 tour0.2.1 tourLogin = true)
  obtain ⟨sv2, o2, v2⟩ : ∃ sv, wout tour2.2.2 = some (.ok sv) ∧
      Visit toyEnv (fun _ => true) tour1.2.1 { tourStart with cookie := some webCookie } tour2.1 tour2.2.1 (.ok sv) :=
    tour_visit rfl (by decide +kernel : tourOk 4 0 tour1.2.1 { tourStart with cookie := some webCookie } = true)
  obtain ⟨sv3, o3, v3⟩ : ∃ sv, wout tour3.2.2 = some (.ok sv) ∧
      Visit toyEnv (fun _ => true) tour2.2.1 webExchange tour3.1 tour3.2.1 (.ok sv) :=
    tour_visit rfl (by decide +kernel : tourOk 13 1 tour2.2.1 webExchange = true)
  obtain ⟨sv4, o4, v4⟩ : ∃ sv, wout tour4.2.2 = some (.ok sv) ∧
      Visit toyEnv (fun _ => true) tour3.2.1 tourAgain tour4.1 tour4.2.1 (.ok sv) :=
    tour_visit rfl (by decide +kernel : tourOk 6 2 tour3.2.1 tourAgain = true)
  have times : ∀ {n k w req n' k' w' req' t t'} (d : Int), t = tour n k w req → t' = tour n' k' w' req' → 0 < d →
      ∀ p ∈ t.1, ∀ q ∈ t'.1, q.1.now < p.1.now + d := by
    intro n k w req n' k' w' req' t t' d ht ht' hd p hp q hq
    subst ht ht'
    rw [List.eq_of_mem_replicate (wsolo_draws p hp), List.eq_of_mem_replicate (wsolo_draws q hq)]
    show (1000000 : Int) < 1000000 + d
    omega
  obtain ⟨loc0, e0, -, H⟩ := C105 toyEnv toyFloat_laws toyHash_lengths (fun _ => true) ⟨exStore, []⟩ _ _ _ exClient exUser tourStart _ _ _ _ _
    exStore_sound List.nodup_nil rfl rfl rfl (by intro x hx; cases hx) tourStart_asks rfl v0
  have hloc : tourLocation tour0.2.2 = loc0 := by
    unfold tourLocation
    rw [o0, e0]
  obtain ⟨ck, e1, H⟩ := H tourLogin _ _ _
    ⟨rfl, rfl, rfl, form_valid_iff.mp (by decide +kernel), rfl, rfl, (webLogin_query _ _).trans (congrArg urlQuery hloc),
      encodable_ascii (by decide), encodable_ascii (by decide +kernel)⟩ v1
  have hck : ck = webCookie := by
    have : (match wout tour1.2.2 with | some (.ok sv) => decide (sv.cookie = some webCookie) | _ => false) = true := by decide +kernel
    rw [o1, e1] at this
    exact Option.some.inj (of_decide_eq_true this)
  subst hck
  obtain ⟨headers, body, loc, code, e2, hmem, hq, H⟩ := H _ _ _ v2
  have hcode : code = List.replicate 64 97 := by
    have hr : (match wout tour2.2.2 with
        | some (.ok ⟨.response _ hs _, _⟩) => hs.all (fun h => decide (h.1 ≠ py! "location" ∨
          Dict.get (urldecode (urlQuery h.2)) (py! "code") = some (List.replicate 64 97)))
        | _ => false) = true := by decide +kernel
    rw [o2, e2] at hr
    have hr := (of_decide_eq_true (List.all_eq_true.mp hr _ hmem)).resolve_left (fun h => h rfl)
    rw [hq] at hr
    cases code with
    | nil => exact absurd hr (by decide +kernel)
    | cons c code =>
      simp [visible, Dict.get] at hr
      simpa using hr
  subst hcode
  obtain ⟨r3, reply3, e3, hp3, hs3, H⟩ := H webExchange _ _ _ (tour_call (body := webExchange.body)) (by
    intro r hr
    have hd := arrived_data hr
    have hget : [py! "grant_type", py! "code", py! "redirect_uri", py! "code_verifier"].map (Dict.get r.data) =
        [some (py! "authorization_code"), some (List.replicate 64 97), some (py! "https://c/cb"), some toyVerifier] := by
      rw [hd]
      decide +kernel
    simp only [List.map_cons, List.map_nil, List.cons.injEq, and_true] at hget
    obtain ⟨g1, g2, g3, g4⟩ := hget
    exact ⟨g1, by decide, ⟨.basic, tour_identifies (body := webExchange.body) hr⟩, ⟨g2, by decide⟩, ⟨g3, by decide, by decide⟩,
      toyVerifier, g4, by decide, Or.inl ⟨rfl, rfl⟩⟩) v3 (times _ rfl rfl (by decide))
  cases e3
  obtain ⟨d, t, hd, hdt, H⟩ := H (by decide)
  have ht : t = List.replicate 32 98 := by
    obtain ⟨hs, extra, rfl, -, -, -⟩ := hp3
    have hb : (match wout tour3.2.2 with
        | some (.ok ⟨.response _ _ body, _⟩) =>
          (match jsonLoads toyEnv.cr.fe body with
            | .ok (.dict d) => (match Dict.get d (py! "refresh_token") with
              | some (.str t) => decide (t = List.replicate 32 98)
              | _ => false)
            | _ => false)
        | _ => false) = true := by decide +kernel
    rw [o3] at hb
    dsimp only at hb
    have hd : jsonLoads toyEnv.cr.fe r3.body = .ok (.dict d) := hd
    rw [hd] at hb
    dsimp only at hb
    rw [hdt] at hb
    exact of_decide_eq_true hb
  subst ht
  obtain ⟨r4, reply4, scopes, e4, hp4, hs4, hsc⟩ := H tourAgain _ _ _ tour_call (by
    intro r hr
    have hd := arrived_data hr
    have hget : [py! "grant_type", py! "refresh_token", py! "scope"].map (Dict.get r.data) =
        [some (py! "refresh_token"), some (List.replicate 32 98), none] := by
      rw [hd]
      decide +kernel
    simp only [List.map_cons, List.map_nil, List.cons.injEq, and_true] at hget
    obtain ⟨g1, g2, g3⟩ := hget
    exact ⟨g1, by decide, ⟨.basic, tour_identifies hr⟩, ⟨g2, by decide⟩, Or.inl ⟨g3, rfl⟩, by intro s hs; cases hs⟩) v4
    (times _ rfl rfl (by decide))
  cases e4
  exact ⟨r3, r4, reply3, reply4, scopes, o3, o4, hp3, hp4, hs3, hs4, hsc⟩

end Psion.Props
