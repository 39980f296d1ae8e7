import Verif.Props.System
import Verif.Props.Revoke

/-!
# Properties C54, C59: refresh tokens of the example application
-/

namespace Psion.Props

open Psion Spec Example

/-! ## C54 -/

/-- C54, isolation: whatever step a revocation request performs, in whatever state of the database, users, clients and codes stay
as they are, no refresh token is added, and a refresh token that disappears is the token named in the request and belongs to a
client that this request has authenticated. -/
theorem C54_isolation (env : OEnv) (table : Hooks) (calls : Nat → Call) (pre post : List Step) (i : Nat) (ev : Ev)
    (hist : History env table calls (pre ++ (i, ev) :: post)) (p : Provider) (req : Request)
    (hcall : calls i = .revoke p req) (m m' : Store) (hstep : ExStep env m ev m') :
    m'.users = m.users ∧ m'.clients = m.clients ∧ m'.codes = m.codes ∧ (∀ r ∈ m'.refresh, r ∈ m.refresh) ∧
      ∀ r ∈ m.refresh, r ∈ m'.refresh ∨ Dict.get req.form (py! "token") = some r.token ∧
        ∃ c, Authenticated req none (ofRequest i pre) c ∧ r.clientId = c.clientId := by
  have hd := history_did hist
  rw [hcall] at hd
  have same : m' = m → m'.users = m.users ∧ m'.clients = m.clients ∧ m'.codes = m.codes ∧
      (∀ r ∈ m'.refresh, r ∈ m.refresh) ∧ ∀ r ∈ m.refresh, r ∈ m'.refresh ∨
        Dict.get req.form (py! "token") = some r.token ∧
        ∃ c, Authenticated req none (ofRequest i pre) c ∧ r.clientId = c.clientId := by
    rintro rfl
    exact ⟨rfl, rfl, rfl, fun r hr => hr, fun r hr => Or.inl hr⟩
  obtain ⟨o, ans⟩ := ev
  rcases C53_operations env p req _ _ _ hd with ⟨id, ho⟩ | ⟨c, t, hint, ho, hauth, ht, -⟩
  · dsimp only at ho
    subst ho
    obtain ⟨d, hs | ⟨-, hs | hs⟩⟩ := hstep
    · exact same (congrArg Prod.fst hs).symm
    · exact same hs
    · exact same hs
  · dsimp only at ho
    subst ho
    have done : m' = revoke m c t → m'.users = m.users ∧ m'.clients = m.clients ∧ m'.codes = m.codes ∧
        (∀ r ∈ m'.refresh, r ∈ m.refresh) ∧ ∀ r ∈ m.refresh, r ∈ m'.refresh ∨
          Dict.get req.form (py! "token") = some r.token ∧
          ∃ c, Authenticated req none (ofRequest i pre) c ∧ r.clientId = c.clientId := by
      rintro rfl
      refine ⟨rfl, rfl, rfl, fun r hr => (List.mem_filter.mp hr).1, ?_⟩
      intro r hr
      by_cases hrt : r.token = t ∧ r.clientId = c.clientId
      · exact Or.inr ⟨by rw [ht, hrt.1], c, hauth, hrt.2⟩
      · exact Or.inl (List.mem_filter.mpr ⟨hr, decide_eq_true hrt⟩)
    obtain ⟨d, hs | ⟨-, hs | hs⟩⟩ := hstep
    · exact done (congrArg Prod.fst hs).symm
    · exact same hs
    · exact done hs

/-- What a completed revocation did: the adapter was asked to revoke. After this, the token is not found for the client, unless
it was created again. -/
theorem revoked_effect {env : OEnv} {s s' : Store} {a b c : List Step} {i j : Nat} {cl : Client} {t : PyStr}
    {hint : Option PyStr} {rt : RefreshTok}
    (hrun : ExRun env s (a ++ (i, ⟨.revoke cl t hint, .ok ()⟩) :: (b ++ (j, ⟨.getRefresh t, .ok (some rt)⟩) :: c)) s')
    (hc : rt.clientId = cl.clientId) :
    ∃ l c' u ans, (l, ⟨.createRefresh c' (some u) rt.scopes, ans⟩) ∈ b ∧ Created ans t ∧ c'.clientId = cl.clientId := by
  obtain ⟨m, m', -, hs, hr1⟩ := run_at hrun
  obtain ⟨n, n', hr2, hg, -⟩ := run_at hr1
  obtain ⟨hm, ht⟩ := step_getRefresh hg
  rcases run_refresh hr2 hm with hm | ⟨l, c', u, ans, hm, hcr, hcl, -⟩
  · obtain ⟨d, hs | ⟨⟨n, hn⟩, -⟩⟩ := hs
    · have h1 : revoke m cl t = m' := congrArg Prod.fst hs
      rw [← h1] at hm
      have := of_decide_eq_true (List.mem_filter.mp hm).2
      exact absurd ⟨ht, hc⟩ this
    · cases hn
  · exact ⟨l, c', u, ans, hm, ht ▸ hcr, by rw [← hcl, hc]⟩

/-- C54, effect: when a revocation request has been answered with 200, the refresh token named in the request is unusable for the
client that was authenticated: no token request that starts later creates a token for this client from it, unless the adapter has
drawn the same token again after the revocation. -/
theorem C54_unusable (env : OEnv) (table : Hooks) (hb : Benign table) (calls : Nat → Call) (s s' : Store)
    (a b : List Step) (i : Nat) (p : Provider) (req : Request) (r : Response)
    (hist : History env table calls (a ++ b)) (hrun : ExRun env s (a ++ b) s')
    (hdone : Exec (p.revoke env req) (ofRequest i a) (.ok (some r))) (h200 : r.status = 200) :
    ∃ cl t hint a1 a2, Authenticated req none (ofRequest i a) cl ∧ Dict.get req.form (py! "token") = some t ∧
      a = a1 ++ (i, ⟨.revoke cl t hint, .ok ()⟩) :: a2 ∧
      ∀ j p' req' c owner scopes ans, calls j = .token p' req' → ofRequest j a = [] →
        Dict.get req'.data (py! "grant_type") = some (py! "refresh_token") →
        Dict.get req'.data (py! "refresh_token") = some t →
        (j, ⟨.createAccess c owner scopes, ans⟩) ∈ b → c.clientId = cl.clientId →
        ∃ l c' u scopes' ans', (l, ⟨.createRefresh c' (some u) scopes', ans'⟩) ∈ a2 ++ b ∧ Created ans' t ∧
          c'.clientId = cl.clientId := by
  rcases C53_answers env p req _ r hdone with ⟨-, -, cl, t, hauth, ht, hrev⟩ | ⟨x, hst, -⟩
  · obtain ⟨a1, a2, rfl⟩ := List.append_of_mem (mem_ofRequest.mp hrev)
    refine ⟨cl, t, _, a1, a2, hauth, ht, rfl, ?_⟩
    intro j p' req' c owner scopes ans hcj hja hgt hrt hm hcid
    obtain ⟨b1, b2, rfl⟩ := List.append_of_mem hm
    rw [← List.append_assoc] at hist
    have hd := history_did hist
    rw [hcj] at hd
    obtain ⟨g, -, htype, -, hauth', hj⟩ := access_justified hb hd
    rw [hgt] at htype
    obtain rfl : GrantClass.refreshToken = g := grantName_inj (Option.some.inj htype)
    obtain ⟨u, rfl, token, rt, now, base, h1, h2, h3, -⟩ := hj
    rw [hrt] at h1
    cases h1
    rw [ofRequest_append, hja, List.nil_append] at h2
    obtain ⟨b3, b4, rfl⟩ := List.append_of_mem (mem_ofRequest.mp h2)
    have hrun' : ExRun env s (a1 ++ (i, ⟨.revoke cl t (Dict.get req.form (py! "token_type_hint")), .ok ()⟩) ::
        ((a2 ++ b3) ++ (j, ⟨.getRefresh t, .ok (some rt)⟩) ::
          (b4 ++ (j, ⟨.createAccess c (.user u) scopes, ans⟩) :: b2))) s' := by
      simpa using hrun
    obtain ⟨l, c', u', ans', hm', hcr, hcl⟩ := revoked_effect hrun' (h3.trans hcid)
    refine ⟨l, c', u', rt.scopes, ans', ?_, hcr, hcl⟩
    rcases List.mem_append.mp hm' with h | h
    · exact List.mem_append_left _ h
    · exact List.mem_append_right _ (List.mem_append_left _ (List.mem_append_left _ h))
  · rcases hst with ⟨h, -⟩ | ⟨h, -⟩ <;> rw [h200] at h <;> cases h

/-- A database with refresh tokens of two clients. -/
def exTokens : Store := { exStore with refresh := [⟨py! "r1", py! "c1", py! "u1", [py! "openid"], 99⟩,
  ⟨py! "r2", py! "c2", py! "u1", [py! "openid"], 99⟩, ⟨py! "r3", py! "c1", py! "u2", [py! "openid"], 99⟩] }

/-- The tokens left after the client `c1` asked to revoke this one, and the status of the answer. -/
def exRevoked (token : Bytes) : List PyStr × Option Nat :=
  let x := sim toyEnv (exTurn 0 2 0) exTokens (fun _ => exProvider.revoke toyEnv (toyPost (by! "token=" ++ token)))
  (x.2.1.refresh.map (·.token), match outcome (x.2.2 0) with
    | some (.ok (some r)) => some r.status
    | _ => none)

example : exRevoked (by! "r1") = ([py! "r2", py! "r3"], some 200) := by decide +kernel
example : exRevoked (by! "r2") = ([py! "r1", py! "r2", py! "r3"], some 200) := by decide +kernel

/-- Before the revocation, the token can be used. -/
example : redeems 0 [py! "openid"] (sim toyEnv (exTurn 0 5 0) { exTokens with refresh := exTokens.refresh.map fun r => { r with expiration := 2000000 } }
    (fun _ => exProvider.token toyEnv (exHooks toyEnv) (toyPost (by! "grant_type=refresh_token&refresh_token=r1")))).1 = true := by
  decide +kernel

/-! ## C59 -/

/-- A completed exchange of a code: the request number `i` of the history was answered with 200 and this refresh token. -/
structure Exchange (env : OEnv) (h : List Step) (i : Nat) (req : Request) (t : PyStr) : Prop where
  grant : Dict.get req.data (py! "grant_type") = some (py! "authorization_code")
  answered : ∃ r d, Exec (exProvider.token env (exHooks env) req) (ofRequest i h) (.ok r) ∧ r.status = 200 ∧
    JsonBody env.cr.fe r d ∧ Dict.get d (py! "refresh_token") = some (.str t)

/-- C59, exactly: the refresh token of the answer was returned by the adapter when it was asked for one with exactly the scopes of
the code. At that time it was stored for the client and the user of the code, and either it was new, with these scopes and a
lifetime of 14 days, or it had been stored before; then it is returned as it was. -/
theorem C59_exact (env : OEnv) (hl : FloatLaws env.cr.fe) (s s' : Store) (hu : s.Unique) (h : List Step)
    (hrun : ExRun env s h s') (i : Nat) (req : Request) (t : PyStr) (hx : Exchange env h i req t) :
    ∃ code ac c u pre post m m' d row, Dict.get req.data (py! "code") = some code ∧
      FoundCode (ofRequest i h) (.str code) ac ∧ FoundUser (ofRequest i h) ac.userId (some u) ∧
      Authenticated req none (ofRequest i h) c ∧
      h = pre ++ (i, ⟨.createRefresh c (some u) ac.scopes, .ok t⟩) :: post ∧
      ExRun env s pre m ∧ exOp env d m (.createRefresh c (some u) ac.scopes) = (m', .ok t) ∧ ExRun env m' post s' ∧
      m'.findRefresh t = some row ∧ row.clientId = c.clientId ∧ row.userId = u.userId ∧
      (m.findRefresh t = some row ∨
        (∀ r ∈ m.refresh, ¬ (r.clientId = c.clientId ∧ r.userId = u.userId)) ∧
          row.scopes = ac.scopes ∧ row.expiration = d.now + 14 * 86400 * 1000000) := by
  obtain ⟨r, d, he, hs, hj, ht⟩ := hx.answered
  obtain ⟨d', code, ac, c, user, access, g1, g2, g3, g4, g5, -, -, -, hcase, -⟩ := oidc_exchange hl hx.grant he hs
  have : d' = d := by
    have := g1.symm.trans hj
    cases this
    rfl
  subst this
  rcases hcase with ⟨-, t', ht', hm⟩ | ⟨-, hn⟩
  · rw [ht] at ht'
    cases ht'
    obtain ⟨pre, post, rfl⟩ := List.append_of_mem (mem_ofRequest.mp hm)
    obtain ⟨m, m', hr1, hstep, hr2⟩ := run_at hrun
    obtain ⟨dr, hop | ⟨⟨n, hn⟩, -⟩⟩ := hstep
    · have hu' : m.Unique := run_unique hr1 hu
      have hu2 : m'.Unique := by
        have := unique_op (env := env) dr (.createRefresh c (some user) ac.scopes) hu'
        rw [hop] at this
        exact this
      have hop1 : (createRefresh m dr c (some user) ac.scopes).1 = m' := congrArg Prod.fst hop
      have hop2 : (createRefresh m dr c (some user) ac.scopes).2 = .ok t := congrArg Prod.snd hop
      rcases createRefresh_cases m dr c (some user) ac.scopes with ⟨hst, ⟨e, he⟩ | ⟨u, row, hx, hmem, hc, hus, hans⟩⟩ |
        ⟨u, token, hx, hno, -, hans, hst⟩
      · rw [hop2] at he; cases he
      · cases hx
        rw [hop2] at hans
        cases hans
        rw [hst] at hop1
        subst hop1
        exact ⟨code, ac, c, user, pre, post, m, m, dr, row, g2, g3, g5, g4, rfl, hr1, hop, hr2,
          findRefresh_some hu' hmem, hc, hus, Or.inl (findRefresh_some hu' hmem)⟩
      · cases hx
        rw [hop2] at hans
        cases hans
        rw [hst] at hop1
        subst hop1
        exact ⟨code, ac, c, user, pre, post, m, _, dr, _, g2, g3, g5, g4, rfl, hr1, hop, hr2,
          findRefresh_some hu2 List.mem_cons_self, rfl, rfl, Or.inr ⟨hno, rfl, rfl⟩⟩
    · cases hn
  · rw [ht] at hn
    cases hn

/-- C59 for the first refresh token of a client for a user: if none was asked for before, the token returned is stored with exactly
the scopes of the code and expires 14 days after it was made. -/
theorem C59_partial (env : OEnv) (hl : FloatLaws env.cr.fe) (s s' : Store) (h0 : s.refresh = []) (h : List Step)
    (hrun : ExRun env s h s') (i : Nat) (req : Request) (t : PyStr) (hx : Exchange env h i req t) :
    ∃ code ac c u pre post m m' d, Dict.get req.data (py! "code") = some code ∧
      FoundCode (ofRequest i h) (.str code) ac ∧ FoundUser (ofRequest i h) ac.userId (some u) ∧
      Authenticated req none (ofRequest i h) c ∧
      h = pre ++ (i, ⟨.createRefresh c (some u) ac.scopes, .ok t⟩) :: post ∧
      ExRun env s pre m ∧ exOp env d m (.createRefresh c (some u) ac.scopes) = (m', .ok t) ∧ ExRun env m' post s' ∧
      ((∀ j c' u' scopes ans, (j, ⟨.createRefresh c' (some u') scopes, ans⟩) ∈ pre →
          ¬ (c'.clientId = c.clientId ∧ u'.userId = u.userId)) →
        m'.findRefresh t = some ⟨t, c.clientId, u.userId, ac.scopes, d.now + 14 * 86400 * 1000000⟩) ∧
      ((∀ j c' u' scopes ans, (j, ⟨.createRefresh c' (some u') scopes, ans⟩) ∈ pre →
          c'.clientId = c.clientId → u'.userId = u.userId → scopes = ac.scopes) →
        ∃ row, m'.findRefresh t = some row ∧ row.scopes = ac.scopes) := by
  have hu : s.Unique := ⟨by rw [h0]; nofun, by rw [h0]; nofun⟩
  obtain ⟨code, ac, c, u, pre, post, m, m', d, row, g1, g2, g3, g4, g5, g6, g7, g8, g9, g10, g11, g12⟩ :=
    C59_exact env hl s s' hu h hrun i req t hx
  refine ⟨code, ac, c, u, pre, post, m, m', d, g1, g2, g3, g4, g5, g6, g7, g8, ?_, ?_⟩
  · intro hno
    rcases g12 with hm | ⟨-, h1, h2⟩
    · exfalso
      rcases run_refresh g6 (List.mem_of_find?_eq_some hm) with hr | ⟨j, c', u', ans, hr, -, e1, e2⟩
      · rw [h0] at hr; cases hr
      · exact hno j c' u' _ ans hr ⟨by rw [← e1, g10], by rw [← e2, g11]⟩
    · have ht : row.token = t := by simpa using List.find?_some g9
      rw [g9]
      obtain ⟨r1, r2, r3, r4, r5⟩ := row
      simp only at ht g10 g11 h1 h2
      rw [ht, g10, g11, h1, h2]
  · intro hsame
    refine ⟨row, g9, ?_⟩
    rcases g12 with hm | ⟨-, h1, -⟩
    · rcases run_refresh g6 (List.mem_of_find?_eq_some hm) with hr | ⟨j, c', u', ans, hr, -, e1, e2⟩
      · rw [h0] at hr; cases hr
      · exact hsame j c' u' _ ans hr (by rw [← e1, g10]) (by rw [← e2, g11])
    · exact h1

/-- A text member of a response with the status 200. -/
def memberOf (name : PyStr) : Option (ORes Response) → Option PyStr
  | some (.ok r) =>
    match jsonLoads toyFloat r.body with
    | .ok (.dict d) =>
      match Dict.get d name with
      | some (.str t) => if r.status = 200 then some t else none
      | _ => none
    | _ => none
  | _ => none

theorem memberOf_some {name : PyStr} {out : Option (ORes Response)} {t : PyStr} (h : memberOf name out = some t) :
    ∃ r d, out = some (.ok r) ∧ r.status = 200 ∧ JsonBody toyFloat r d ∧ Dict.get d name = some (.str t) := by
  unfold memberOf at h
  split at h
  · rename_i r
    split at h
    · rename_i d hd
      split at h
      · rename_i t' ht
        split at h
        · rename_i hs
          cases h
          exact ⟨r, d, rfl, hs, hd, ht⟩
        · cases h
      · cases h
    · cases h
  · cases h

/-- Two authorizations of the same client by the same user, the second one for more scopes, and the exchanges of the codes. -/
def exTwice : Nat → Call
  | 0 => .authorize exProvider (exAuthorize [(py! "nonce", py! "n")])
  | 1 => .token exProvider (exExchange exCode)
  | 2 => .authorize exProvider (toyGet [(py! "response_type", py! "code"), (py! "client_id", py! "c1"),
      (py! "redirect_uri", py! "https://c/cb"), (py! "scope", py! "openid profile"), (py! "code_challenge", toyVerifier),
      (py! "code_challenge_method", py! "plain"), (py! "nonce", py! "n")] (some exUser.user))
  | _ => .token exProvider (exExchange (List.replicate 64 98))

/-- The second authorization and exchange take place at the time `now`. -/
def exTwiceAt (now : Int) : List (Nat × Draw) :=
  exTurn 0 3 0 ++ exTurn 1 13 2 ++ List.replicate 3 (2, exDrawAt now 1) ++ List.replicate 13 (3, exDrawAt now 3)

/-- The scopes of the codes found by the events. -/
def foundScopes (tr : List Ev) : List (List PyStr) := tr.filterMap fun
  | ⟨.getCode _, .ok (some ac)⟩ => some ac.scopes
  | _ => none

theorem foundScopes_mem {tr : List Ev} {v : Val} {ac : AuthCode} (h : FoundCode tr v ac) : ac.scopes ∈ foundScopes tr :=
  List.mem_filterMap.mpr ⟨_, h, rfl⟩

/-- The readings of the clock in the events. -/
def clockReadings (tr : List Ev) : List Int := tr.filterMap fun
  | ⟨.now, .ok n⟩ => some n
  | _ => none

theorem clockReadings_mem {tr : List Ev} {n : Int} (h : ReadClock tr n) : n ∈ clockReadings tr :=
  List.mem_filterMap.mpr ⟨_, h, rfl⟩

theorem exTwice_plain (i : Nat) : Call.plain (exTwice i) = true := by
  match i with
  | 0 | 1 | 2 => rfl
  | _ + 3 => rfl

theorem exTwice_exchange {now : Int} {t : PyStr}
    (h : memberOf (py! "refresh_token") (outcome ((exSim exTwice (exTwiceAt now)).2.2 3)) = some t) :
    Exchange toyEnv (exSim exTwice (exTwiceAt now)).1 3 (exExchange (List.replicate 64 98)) t := by
  refine ⟨by decide +kernel, ?_⟩
  obtain ⟨r, d, h1, h2, h3, h4⟩ := memberOf_some h
  exact ⟨r, d, sim_outcome h1, h2, h3, h4⟩

/-- C59 is violated: the refresh token that is returned for a code for `openid profile` is an older one for `openid` only. -/
theorem C59_refuted : ∃ h s' t row, History toyEnv (exHooks toyEnv) exTwice h ∧ ExRun toyEnv exStore h s' ∧
    Exchange toyEnv h 3 (exExchange (List.replicate 64 98)) t ∧
    (∀ v ac, FoundCode (ofRequest 3 h) v ac → ac.scopes = [py! "openid", py! "profile"]) ∧
    s'.findRefresh t = some row ∧ row.scopes = [py! "openid"] := by
  refine ⟨(exSim exTwice (exTwiceAt 2000000)).1, (exSim exTwice (exTwiceAt 2000000)).2.1, List.replicate 32 99,
    ⟨List.replicate 32 99, py! "c1", py! "u1", [py! "openid"], 1000000 + 14 * 86400 * 1000000⟩,
    exSim_history _ _ exTwice_plain, exSim_run _ _, exTwice_exchange (by decide +kernel), ?_, by decide +kernel, rfl⟩
  intro v ac hf
  have := foundScopes_mem hf
  rw [show foundScopes (ofRequest 3 (exSim exTwice (exTwiceAt 2000000)).1) = [[py! "openid", py! "profile"]] by
    decide +kernel] at this
  simpa using this

/-- C59 is violated in its second part as well: 15 days later, the refresh token returned has already expired. -/
theorem C59_refuted_expired : ∃ h s' t row, History toyEnv (exHooks toyEnv) exTwice h ∧ ExRun toyEnv exStore h s' ∧
    Exchange toyEnv h 3 (exExchange (List.replicate 64 98)) t ∧ s'.findRefresh t = some row ∧
    ∀ now, ReadClock (ofRequest 3 h) now → row.expiration < now := by
  refine ⟨(exSim exTwice (exTwiceAt (15 * 86400 * 1000000))).1, (exSim exTwice (exTwiceAt (15 * 86400 * 1000000))).2.1,
    List.replicate 32 99,
    ⟨List.replicate 32 99, py! "c1", py! "u1", [py! "openid"], 1000000 + 14 * 86400 * 1000000⟩,
    exSim_history _ _ exTwice_plain, exSim_run _ _, exTwice_exchange (by decide +kernel), by decide +kernel, ?_⟩
  intro now hn
  have := clockReadings_mem hn
  rw [show clockReadings (ofRequest 3 (exSim exTwice (exTwiceAt (15 * 86400 * 1000000))).1) = [15 * 86400 * 1000000] by
    decide +kernel] at this
  rw [List.mem_singleton.mp this]
  decide

/-- The hypotheses of `C59_exact` and `C59_partial` can be met, and the first refresh token is stored as stated. -/
example : memberOf (py! "refresh_token") (outcome ((exSim exTwice (exTurn 0 3 0 ++ exTurn 1 13 2)).2.2 1)) =
    some (List.replicate 32 99) ∧ (exSim exTwice (exTurn 0 3 0 ++ exTurn 1 13 2)).2.1.refresh =
      [⟨List.replicate 32 99, py! "c1", py! "u1", [py! "openid"], 1000000 + 14 * 86400 * 1000000⟩] := by
  decide +kernel

end Psion.Props
