import Verif.Props.ExampleTokens
import Verif.Props.OidcSuccess
import Verif.Props.Example
import Verif.Props.Web
import Verif.Props.WebAnswer
import Verif.Spec.Disclosure

/-!
# Property C83: the ID tokens of the example application
-/

namespace Psion.Props

open Psion Spec Example

/-! ## The user information -/

/-- The claims before `FullDict` removes those without value. -/
def rawInfo (u : UserRow) (scopes : List PyStr) : Dict PyStr Val :=
  (scopeClaims u).foldl (fun d sc => if has scopes sc.1 then Dict.update d sc.2 else d) [(py! "sub", .str u.id)]

theorem userinfo_raw (u : UserRow) (scopes : List PyStr) : userinfo u scopes = fullDict (rawInfo u scopes) := rfl

theorem scopeClaims_ok {u : UserRow} {sc : PyStr × List (PyStr × Val)} (h : sc ∈ scopeClaims u) :
    Dict.Ok sc.2 ∧ (∀ kv ∈ sc.2, kv.2.Wf) ∧ ∀ k ∈ Dict.keys sc.2, k ≠ py! "sub" ∧ k ∉ providerClaims := by
  simp only [scopeClaims, List.mem_cons, List.not_mem_nil, or_false] at h
  have opt : ∀ o, (optVal o).Wf := by intro o; cases o <;> trivial
  rcases h with rfl | rfl | rfl | rfl
  · refine ⟨by simp [Dict.Ok, Dict.keys], ?_, ?_⟩
    · intro kv hkv
      simp only [List.mem_cons, List.not_mem_nil, or_false] at hkv
      rcases hkv with rfl | rfl | rfl | rfl | rfl | rfl | rfl | rfl | rfl | rfl | rfl | rfl | rfl | rfl <;>
        first | trivial | exact opt _
    · simp only [Dict.keys, List.map_cons, List.map_nil]
      decide
  · refine ⟨by simp [Dict.Ok, Dict.keys], ?_, ?_⟩
    · intro kv hkv
      simp only [List.mem_cons, List.not_mem_nil, or_false] at hkv
      rcases hkv with rfl | rfl <;> trivial
    · simp only [Dict.keys, List.map_cons, List.map_nil]
      decide
  · refine ⟨by simp [Dict.Ok, Dict.keys], ?_, ?_⟩
    · intro kv hkv
      rw [List.mem_singleton.mp hkv]
      exact u.addressWf
    · simp only [Dict.keys, List.map_cons, List.map_nil]
      decide
  · refine ⟨by simp [Dict.Ok, Dict.keys], ?_, ?_⟩
    · intro kv hkv
      simp only [List.mem_cons, List.not_mem_nil, or_false] at hkv
      rcases hkv with rfl | rfl <;> first | trivial | exact opt _
    · simp only [Dict.keys, List.map_cons, List.map_nil]
      decide

/-- A fold of updates: what is found comes from one of them or from the beginning. -/
theorem get_fold {scopes : List PyStr} {k : PyStr} : ∀ {l : List (PyStr × List (PyStr × Val))} {d : Dict PyStr Val},
    (∀ sc ∈ l, Dict.Ok sc.2) →
    (∃ sc ∈ l, has scopes sc.1 = true ∧ ∃ v, (k, v) ∈ sc.2 ∧
      Dict.get (l.foldl (fun d sc => if has scopes sc.1 then Dict.update d sc.2 else d) d) k = some v) ∨
    (∀ sc ∈ l, has scopes sc.1 = true → k ∉ Dict.keys sc.2) ∧
      Dict.get (l.foldl (fun d sc => if has scopes sc.1 then Dict.update d sc.2 else d) d) k = Dict.get d k
  | [], d, _ => Or.inr ⟨nofun, rfl⟩
  | sc :: l, d, hok => by
    rw [List.foldl_cons]
    rcases get_fold (scopes := scopes) (k := k) (l := l) (d := if has scopes sc.1 then Dict.update d sc.2 else d)
      (fun x hx => hok x (List.mem_cons_of_mem _ hx)) with ⟨x, hx, h1, h2⟩ | ⟨h1, h2⟩
    · exact Or.inl ⟨x, List.mem_cons_of_mem _ hx, h1, h2⟩
    · rw [h2]
      by_cases hs : has scopes sc.1 = true
      · rw [if_pos hs, Dict.get_update_ok (hok sc List.mem_cons_self)]
        cases hg : Dict.get sc.2 k with
        | some v => exact Or.inl ⟨sc, List.mem_cons_self, hs, v, Dict.mem_of_get hg, rfl⟩
        | none =>
          refine Or.inr ⟨?_, rfl⟩
          intro x hx hxs
          rcases List.mem_cons.mp hx with rfl | hx
          · exact Dict.get_eq_none_iff.mp hg
          · exact h1 x hx hxs
      · rw [if_neg hs]
        refine Or.inr ⟨?_, rfl⟩
        intro x hx hxs
        rcases List.mem_cons.mp hx with rfl | hx
        · exact absurd hxs hs
        · exact h1 x hx hxs

theorem fold_ok {scopes : List PyStr} : ∀ {l : List (PyStr × List (PyStr × Val))} {d : Dict PyStr Val},
    Dict.Ok d → (∀ kv ∈ d, kv.2.Wf) → (∀ sc ∈ l, ∀ kv ∈ sc.2, kv.2.Wf) →
    Dict.Ok (l.foldl (fun d sc => if has scopes sc.1 then Dict.update d sc.2 else d) d) ∧
      ∀ kv ∈ l.foldl (fun d sc => if has scopes sc.1 then Dict.update d sc.2 else d) d, kv.2.Wf
  | [], d, h1, h2, _ => ⟨h1, h2⟩
  | sc :: l, d, h1, h2, h3 => by
    rw [List.foldl_cons]
    refine fold_ok ?_ ?_ (fun x hx => h3 x (List.mem_cons_of_mem _ hx))
    · split
      · exact Dict.ok_update h1 _
      · exact h1
    · split
      · intro kv hkv
        rcases Dict.mem_update hkv with hkv | hkv
        · exact h2 kv hkv
        · exact h3 sc List.mem_cons_self kv hkv
      · exact h2

theorem rawInfo_ok (u : UserRow) (scopes : List PyStr) :
    Dict.Ok (rawInfo u scopes) ∧ ∀ kv ∈ rawInfo u scopes, kv.2.Wf := by
  refine fold_ok (by simp [Dict.Ok, Dict.keys]) ?_ (fun sc hsc => (scopeClaims_ok hsc).2.1)
  intro kv hkv
  rw [List.mem_singleton.mp hkv]
  trivial

theorem userinfo_wf (u : UserRow) (scopes : List PyStr) : (Val.dict (userinfo u scopes)).Wf := by
  obtain ⟨h1, h2⟩ := rawInfo_ok u scopes
  rw [userinfo_raw]
  exact ⟨ok_fullDict h1, wfD_iff.mpr fun kv hkv => h2 kv (List.mem_filter.mp hkv).1⟩

/-- The user information of the example application discloses what the scopes permit. -/
theorem userinfo_discloses (u : UserRow) (scopes : List PyStr) (k : PyStr) :
    Discloses u scopes k (dget (userinfo u scopes) k) := by
  rw [userinfo_raw, dget_fullDict (rawInfo_ok u scopes).1]
  rcases get_fold (scopes := scopes) (k := k) (l := scopeClaims u) (d := [(py! "sub", .str u.id)])
    (fun sc h => (scopeClaims_ok h).1) with ⟨sc, hsc, hs, v, hv, hg⟩ | ⟨hno, hg⟩
  · have hk := ((scopeClaims_ok hsc).2.2 k (List.mem_map.mpr ⟨_, hv, rfl⟩)).1
    have : dget (rawInfo u scopes) k = v := by
      unfold dget rawInfo
      rw [hg]
      rfl
    rw [this]
    exact Or.inr (Or.inl ⟨hk, sc.1, of_decide_eq_true hs, sc.2, hsc, hv⟩)
  · have he : dget (rawInfo u scopes) k = (Dict.get [(py! "sub", Val.str u.id)] k).getD .none := by
      unfold dget rawInfo
      rw [hg]
    rw [he]
    by_cases hk : k = py! "sub"
    · subst hk
      exact Or.inl ⟨rfl, rfl⟩
    · refine Or.inr (Or.inr ⟨hk, ?_, ?_⟩)
      · rintro v' ⟨scope, hsc, claims, hcl, hm⟩
        exact hno _ hcl (decide_eq_true hsc) (List.mem_map.mpr ⟨_, hm, rfl⟩)
      · have : Dict.get [(py! "sub", Val.str u.id)] k = none := by
          rw [Dict.get_eq_none_iff]
          simpa [Dict.keys] using hk
        rw [this]
        rfl

/-- It leaves the claims of the provider alone. -/
theorem userinfo_others (u : UserRow) (scopes : List PyStr) : ∀ k ∈ providerClaims, Dict.get (userinfo u scopes) k = none := by
  intro k hk
  rw [Dict.get_eq_none_iff, userinfo_raw]
  intro hm
  obtain ⟨kv, hkv, rfl⟩ := List.mem_map.mp hm
  have hkv := (List.mem_filter.mp hkv).1
  have hg := Dict.get_of_mem (rawInfo_ok u scopes).1 hkv
  rcases get_fold (scopes := scopes) (k := kv.1) (l := scopeClaims u) (d := [(py! "sub", .str u.id)])
    (fun sc h => (scopeClaims_ok h).1) with ⟨sc, hsc, hs, v, hv, -⟩ | ⟨-, hg'⟩
  · exact ((scopeClaims_ok hsc).2.2 _ (List.mem_map.mpr ⟨_, hv, rfl⟩)).2 hk
  · have hg' := hg'.symm.trans hg
    have := Dict.mem_of_get hg'
    have := congrArg Prod.fst (List.mem_singleton.mp this)
    dsimp only at this
    rw [this] at hk
    revert hk
    decide

/-- What the adapter answers about a user. -/
theorem step_getUserinfo {env : OEnv} {m m' : Store} {u : User} {ws : List PyStr} {info : Dict PyStr Val}
    (h : ExStep env m ⟨.getUserinfo u ws, .ok info⟩ m') : ∃ row, m.findUser u.userId = some row ∧ info = userinfo row ws := by
  obtain ⟨d, h | ⟨⟨n, e⟩, -⟩⟩ := h
  · simp only [exOp] at h
    split at h
    · cases congrArg Prod.snd h
    · rename_i row hrow
      exact ⟨row, hrow, (Except.ok.inj (congrArg Prod.snd h)).symm⟩
  · cases e

theorem step_getKeyInfo {env : OEnv} {m m' : Store} {key : Jwk} {alg : PyStr}
    (h : ExStep env m ⟨.getKeyInfo, .ok (key, alg)⟩ m') : key = exKey ∧ alg = py! "HS256" := by
  obtain ⟨d, h | ⟨⟨n, e⟩, -⟩⟩ := h
  · cases h
    exact ⟨rfl, rfl⟩
  · cases e

theorem findUser_row {m : Store} {id : PyStr} {row : UserRow} (h : m.findUser id = some row) : row ∈ m.users ∧ row.id = id :=
  ⟨List.mem_of_find?_eq_some h, of_decide_eq_true (List.find?_some (p := fun u : UserRow => decide (u.id = id)) h)⟩

theorem words_word {text : PyStr} {ws : List PyStr} (h : Words text ws) : ∀ w ∈ ws, w ≠ [] ∧ ∀ c ∈ w, isPySpace c = false := by
  induction h with
  | nil => nofun
  | space c s ws _ _ ih => exact ih
  | last w h1 h2 =>
    intro x hx
    rw [List.mem_singleton.mp hx]
    exact ⟨h1, h2⟩
  | word w c s ws h1 h2 _ _ ih =>
    intro x hx
    rcases List.mem_cons.mp hx with rfl | hx
    · exact ⟨h1, h2⟩
    · exact ih x hx

/-! ## C83 -/

/-- What the example application learns from its own good ID tokens. -/
theorem idTokenSays_of_good {env : OEnv} {c : Client} {access tok : PyStr} {now : Int} {row : UserRow} {ws : List PyStr}
    (h : GoodIdToken env exProvider.cfg c exKey (py! "HS256") access tok now (userinfo row ws)) :
    IdTokenSays env tok access c.clientId row ws now := by
  obtain ⟨hash, hhash, hgood⟩ := h
  obtain ⟨sha, bytes, hsha, hb, rfl⟩ := hhash
  refine ⟨bytes, hb, sha, hsha, ?_⟩
  intro n1 n2 a1 a2 b1 b2
  obtain ⟨t, ht, k1, k2, k3, k4, k5, k6⟩ := hgood exKey (C19_oct_pair _ _) (fun _ _ => rfl) n1 n2 a1 a2 b1 b2
  have hsub : dget t.claims (py! "sub") = .str row.id := by
    rw [k6 _ (by decide)]
    rcases userinfo_discloses row ws (py! "sub") with ⟨-, h⟩ | ⟨h, -⟩ | ⟨h, -⟩
    · exact h
    · exact absurd rfl h
    · exact absurd rfl h
  refine ⟨t, ht, k1, k2, hsub, k4, k3, k5, ?_⟩
  intro k hk
  rw [k6 k hk]
  exact userinfo_discloses row ws k

/-- The request that the history records as number `i` may differ from `req` in what the token endpoint does not look at. -/
theorem identity_core {env : OEnv} (hl : FloatLaws env.cr.fe) {calls : Nat → Call} {s s' : Store} (h0 : s.codes = [])
    (h1 : s.refresh = []) {h : List Step} (hist : History env (exHooks env) calls h) (hrun : ExRun env s h s') {i : Nat}
    {req req0 : Request} {r : Response} (hcall : calls i = .token exProvider req0) (hdata : req0.data = req.data)
    (hg : Dict.get req.data (py! "grant_type") = some (py! "authorization_code"))
    (hx : Exec (exProvider.token env (exHooks env) req) (ofRequest i h) (.ok r)) (hs : r.status = 200) :
    ∃ d access, JsonBody env.cr.fe r d ∧ Dict.get d (py! "access_token") = some (.str access) ∧
      ∀ v, Dict.get d (py! "id_token") = some v →
        ∃ tok c j p req' code data c' u scopes row now a b m, v = .str tok ∧ Authenticated req none (ofRequest i h) c ∧
          Dict.get req.data (py! "code") = some code ∧
          Authorization env (exHooks env) calls h j p req' code data c' u ∧ c'.clientId = c.clientId ∧
          Dict.get data (py! "scopes") = some (strList scopes) ∧
          (⟨.createAccess c (.user (some u)) scopes, .ok access⟩ : Ev) ∈ ofRequest i h ∧
          h = a ++ b ∧ ExRun env s a m ∧ row ∈ m.users ∧ row.id = u.userId ∧
          IdTokenSays env tok access c.clientId row scopes now := by
  obtain ⟨d, access, hd, hacc, H⟩ := C57_partial env hl exProvider req (ofRequest i h) r hg (by
    intro u ws info hm
    obtain ⟨a, b, rfl⟩ := List.append_of_mem (mem_ofRequest.mp hm)
    obtain ⟨m, m', -, hst, -⟩ := run_at hrun
    obtain ⟨row, -, rfl⟩ := step_getUserinfo hst
    exact ⟨userinfo_wf _ _, userinfo_others _ _⟩) hx hs
  refine ⟨d, access, hd, hacc, ?_⟩
  intro v hv
  obtain ⟨tok, c, u, scopes, key, alg, now, ws, info, rfl, hauth, hca, hkey, -, hinfo, hws, hash, hhash, hgood⟩ := H v hv
  have hk : key = exKey ∧ alg = py! "HS256" := by
    obtain ⟨a, b, rfl⟩ := List.append_of_mem (mem_ofRequest.mp hkey)
    obtain ⟨m, m', -, hst, -⟩ := run_at hrun
    exact step_getKeyInfo hst
  obtain ⟨rfl, rfl⟩ := hk
  obtain ⟨pre, post, hh⟩ := List.append_of_mem (mem_ofRequest.mp hca)
  obtain ⟨j, p, req', code, data, c', u', ha, hcode, hcl, -, ⟨x, hxo, hxu, -⟩, hsc, ⟨text, -, hwords⟩, -⟩ :=
    C64_end_to_end env (exHooks env) (exHooks_benign env) calls pre post i c (.user (some u)) scopes (.ok access) exProvider req0
      (hh ▸ hist) (hh ▸ run_honest hrun h0 h1) hcall
      (hdata ▸ hg)
  cases hxo
  have hu : u = u' := by cases u; cases u'; cases hxu; rfl
  subst hu
  rw [hdata] at hcode
  have hws' : ws = scopes := (words_iff.mp hws).symm.trans (words_iff.mp (words_join scopes (words_word hwords)))
  subst hws'
  have ha' : Authorization env (exHooks env) calls h j p req' code data c' u := by
    have hsub : ∀ y ∈ pre, y ∈ h := fun y hy => hh ▸ List.mem_append_left _ hy
    obtain ⟨ans, hm⟩ := ha.saved
    exact ⟨ha.call, ⟨ans, hsub _ hm⟩, authorizes_mono ha.authorizes (ofRequest_subset hsub)⟩
  obtain ⟨a, b, rfl⟩ := List.append_of_mem (mem_ofRequest.mp hinfo)
  obtain ⟨m, m', hr, hst, -⟩ := run_at hrun
  obtain ⟨row, hrow, rfl⟩ := step_getUserinfo hst
  obtain ⟨hrow1, hrow2⟩ := findUser_row hrow
  refine ⟨tok, c, j, p, req', code, data, c', u, ws, row, now, a, _, m, rfl, hauth, hcode, ha', hcl, hsc, hca, rfl, hr, hrow1,
    hrow2, ?_⟩
  exact idTokenSays_of_good ⟨hash, hhash, hgood⟩

/-- C83: in every history of the example application, an ID token that a code exchange returns says who has authorized the
exchange: a user whose authorization request stored the code that is exchanged now. It is for the client that exchanges the code,
which is the one that was authorized, and discloses of what the database knows about this user exactly what the scopes of that
authorization permit. It belongs to the access token of the same response. -/
theorem C83_identity (env : OEnv) (hl : FloatLaws env.cr.fe) (calls : Nat → Call) (s s' : Store) (h0 : s.codes = [])
    (h1 : s.refresh = []) (h : List Step) (hist : History env (exHooks env) calls h) (hrun : ExRun env s h s') (i : Nat)
    (req : Request) (r : Response) (hcall : calls i = .token exProvider req)
    (hg : Dict.get req.data (py! "grant_type") = some (py! "authorization_code"))
    (hx : Exec (exProvider.token env (exHooks env) req) (ofRequest i h) (.ok r)) (hs : r.status = 200) :
    ∃ d access, JsonBody env.cr.fe r d ∧ Dict.get d (py! "access_token") = some (.str access) ∧
      ∀ v, Dict.get d (py! "id_token") = some v →
        ∃ tok c j p req' code data c' u scopes row now a b m, v = .str tok ∧ Authenticated req none (ofRequest i h) c ∧
          Dict.get req.data (py! "code") = some code ∧
          Authorization env (exHooks env) calls h j p req' code data c' u ∧ c'.clientId = c.clientId ∧
          Dict.get data (py! "scopes") = some (strList scopes) ∧
          (⟨.createAccess c (.user (some u)) scopes, .ok access⟩ : Ev) ∈ ofRequest i h ∧
          h = a ++ b ∧ ExRun env s a m ∧ row ∈ m.users ∧ row.id = u.userId ∧
          IdTokenSays env tok access c.clientId row scopes now :=
  identity_core hl h0 h1 hist hrun hcall rfl hg hx hs

/-- There is such a history: an authorization and an exchange of the code; the response contains an ID token. -/
example : ∃ h s' r d tok, History toyEnv (exHooks toyEnv) exCalls h ∧ ExRun toyEnv exStore h s' ∧
    Exec (exProvider.token toyEnv (exHooks toyEnv) (exExchange exCode)) (ofRequest 1 h) (.ok r) ∧ r.status = 200 ∧
    JsonBody toyFloat r d ∧ Dict.get d (py! "id_token") = some (.str tok) := by
  have hsome : (memberOf (py! "id_token") (outcome ((exSim exCalls (exTurn 0 3 0 ++ exTurn 1 13 1)).2.2 1))).isSome = true := by
    decide +kernel
  obtain ⟨t, ht⟩ := Option.isSome_iff_exists.mp hsome
  obtain ⟨r, d, h1, h2, h3, h4⟩ := memberOf_some ht
  exact ⟨_, _, r, d, t, exSim_history _ _ exCalls_plain, exSim_run _ _, sim_outcome h1, h2, h3, h4⟩

/-- What the scope `openid` does not permit to disclose. -/
example : ¬ Discloses exUser [py! "openid"] (py! "email") (.str (py! "ann@example.org")) := by
  rintro (⟨h, -⟩ | ⟨-, scope, hs, claims, hc, hm⟩ | ⟨-, -, h⟩)
  · cases h
  · rw [List.mem_singleton.mp hs] at hc
    simp [scopeClaims] at hc
  · cases h

example : Discloses exUser [py! "openid", py! "email"] (py! "email") (.str (py! "ann@example.org")) :=
  Or.inr (Or.inl ⟨by decide, py! "email", by decide, _, .tail _ (.head _), .head _⟩)

/-- An ID token is returned only for an authorization code. -/
theorem idToken_grant {env : OEnv} (hl : FloatLaws env.cr.fe) {p : Provider} {req : Request} {tr : List Ev} {r : Response}
    (h : Exec (p.token env (oidcTable env p.cfg) req) tr (.ok r)) (hs : r.status = 200) {d : Dict PyStr Val}
    (hd : JsonBody env.cr.fe r d) {v : Val} (hv : Dict.get d (py! "id_token") = some v) :
    Dict.get req.data (py! "grant_type") = some (py! "authorization_code") := by
  have no : ∀ access refresh scopes, Dict.get (createToken p.cfg access refresh scopes) (py! "id_token") = none := by
    intro access refresh scopes
    rw [Dict.get_eq_none_iff]
    intro hm
    obtain ⟨kv, hkv, he⟩ := List.mem_map.mp hm
    have hkv := (List.mem_filter.mp hkv).1
    simp only [List.mem_cons, List.not_mem_nil, or_false] at hkv
    rcases hkv with rfl | rfl | rfl | rfl | rfl <;> simp at he
  rcases token_response (benign_oidcTable env p.cfg) h with ⟨token, ⟨g, c, hu, hdn⟩, hj⟩ | ⟨x, -, hj⟩
  · cases g with
    | authorizationCode => exact hu.type
    | clientCredentials =>
      obtain ⟨scopes, access, -, -, rep, rfl, -⟩ := hdn.done
      cases (jsonResponse_body hl (wf_createToken _ _ _ _) hj).symm.trans hd
      rw [no] at hv
      cases hv
    | refreshToken =>
      obtain ⟨text, rt, user, scopes, access, refresh, -, -, -, -, -, -, -, rfl⟩ := hdn.done
      cases (jsonResponse_body hl (wf_createToken _ _ _ _) hj).symm.trans hd
      rw [no] at hv
      cases hv
  · rw [(jsonResponse_status hj).1] at hs
    cases hs

theorem arrives_data {req : WebRequest} {user user' : Option User} {r r' : Request} (h : createRequest req user = .ok r)
    (h' : ArrivesAs req user' r') : r.data = r'.data := by
  have hq : r.query = urldecode (urlQuery req.url) ∧ r.body = some req.body := by
    cases request_init h
    exact ⟨rfl, rfl⟩
  unfold Request.data Request.form
  rw [hq.1, hq.2, h'.query, h'.body]

theorem browser_mono {reqs : Nat → WebRequest} {h pre post : List WStep} {x : WStep} {j : Nat} {sid : PyStr} {c : Client} {u : User}
    {ws : List PyStr} {a b : List WStep} (ha : BrowserAuthorization reqs pre j sid c u ws a b) (hh : h = pre ++ x :: post) :
    BrowserAuthorization reqs h j sid c u ws a (b ++ x :: post) := by
  obtain ⟨r, code, data, ans, k1, k2, k3, k4⟩ := ha.saved
  have hsub : ∀ y ∈ libSteps pre, y ∈ libSteps h := by
    intro y hy
    rw [hh, libSteps_append]
    exact List.mem_append_left _ hy
  refine ⟨?_, ha.route, ha.cookie, ha.live, r, code, data, ans, k1, List.mem_append_left _ k2,
    authorizes_mono k3 (ofRequest_subset hsub), k4⟩
  rw [hh, ha.split]
  simp

/-- A text in the body of a response of status 200. -/
def webMember (name : PyStr) (p : WProg (ORes Served)) : Option PyStr :=
  match woutcome p with
  | some (.ok ⟨.response 200 _ body, _⟩) =>
    match jsonLoads toyFloat body with
    | .ok (.dict d) =>
      match Dict.get d name with
      | some (.str t) => some t
      | _ => none
    | _ => none
  | _ => none

theorem webMember_some {reqs : Nat → WebRequest} {l : List (Nat × Draw)} {i : Nat} {name t : PyStr}
    (h : webMember name ((webSim reqs l).2.2 i) = some t) : ∃ headers body cookie d,
      WExec (app toyEnv (exHooks toyEnv) (fun _ => true) (reqs i)) (ofWeb i (webSim reqs l).1)
        (.ok ⟨.response 200 headers body, cookie⟩) ∧
      jsonLoads toyFloat body = .ok (.dict d) ∧ Dict.get d name = some (.str t) := by
  unfold webMember at h
  split at h
  · rename_i headers body cookie ho
    split at h
    · rename_i d hd
      split at h
      · rename_i t' ht
        cases h
        exact ⟨headers, body, cookie, d,
          wsim_outcome (ps := fun i => app toyEnv (exHooks toyEnv) (fun _ => true) (reqs i)) ho, hd, ht⟩
      · cases h
    · cases h
  · cases h

/-- C83 for the web layer: whatever ID token a client receives from the token endpoint of the example application, it is about a
user who has logged in with their password and whose browser has then, in this session, asked for the authorization of this
client for at least the scopes that govern what the ID token discloses. -/
theorem C83_login {env : OEnv} (hl : FloatLaws env.cr.fe) {emailOk : PyStr → Bool} {reqs : Nat → WebRequest} (w w' : WStore)
    (hw : w.sessions = [] ∧ w.db.codes = [] ∧ w.db.refresh = []) (h : List WStep)
    (hist : WHistory env (exHooks env) emailOk reqs h) (hrun : WRun env w h w') (i : Nat) (hr : (reqs i).route = .token)
    (hm : (reqs i).method = py! "POST") (headers : List (PyStr × PyStr)) (body : Bytes) (cookie : Option Cookie)
    (hlow : ∀ kv ∈ (reqs i).headers, asciiLower kv.1 = kv.1)
    (hx : WExec (app env (exHooks env) emailOk (reqs i)) (ofWeb i h) (.ok ⟨.response 200 headers body, cookie⟩))
    (d : Dict PyStr Val) (hd : jsonLoads env.cr.fe body = .ok (.dict d)) (v : Val)
    (hv : Dict.get d (py! "id_token") = some v) :
    ∃ tok access client u scopes row now j sid c' ws a b, v = .str tok ∧
      Dict.get d (py! "access_token") = some (.str access) ∧
      BrowserAuthorization reqs h j sid c' u ws a b ∧ c'.clientId = client ∧ (∀ s ∈ scopes, s ∈ ws) ∧ row.id = u.userId ∧
      IdTokenSays env tok access client row scopes now := by
  rcases C74_partial (reqs i) (ofWeb i h) _ (Or.inr ⟨Or.inl hr, hm⟩) hlow hx with
    ⟨user, r, lib, -, harr, hlib, hend⟩ | ⟨-, -, ho⟩ | ⟨c, e, -, -, ho⟩ | ⟨c, -, -, ho⟩
  · rw [hr] at hlib
    rcases hend with ⟨e, -, ho⟩ | ⟨-, ho⟩ | ⟨resp, rfl, ⟨reply, ⟨hs, extra, hrep, -⟩, ho⟩ | ⟨-, e, ho⟩⟩
    · cases ho
    · cases ho
    · cases ho
      obtain ⟨hst, -, hbody⟩ := Reply.response.inj hrep
      subst hbody
      cases hlib with
      | token _ _ _ hex =>
        have hg := idToken_grant hl hex hst.symm hd hv
        rw [← ofRequest_libSteps] at hex
        obtain ⟨calls, hist', hcalls⟩ := whistory_calls hist
        have hrun' := wrun_lib hrun
        have hne : ofRequest i (libSteps h) ≠ [] := by
          intro hn
          obtain ⟨d', code, ac, c, user, access, -, -, hf, -⟩ := oidc_exchange hl hg hex hst.symm
          rw [hn] at hf
          cases hf
        have hlc := hcalls i hne
        cases hci : calls i with
        | token p r0 =>
          rw [hci] at hlc
          obtain ⟨rfl, -, -, user0, hr0⟩ := hlc
          obtain ⟨d', access, hd', hacc, H⟩ := identity_core hl hw.2.1 hw.2.2 hist' hrun' hci (arrives_data hr0 harr) hg hex
            hst.symm
          cases hd'.symm.trans hd
          obtain ⟨tok, c, -, -, -, -, -, -, u, scopes, row, now, -, -, -, rfl, -, -, -, -, -, hca, -, -, -, hrow, hsays⟩ := H v hv
          have hca := mem_libSteps.mp (mem_ofRequest.mp hca)
          obtain ⟨pre, post, hh⟩ := List.append_of_mem hca
          obtain ⟨j, sid, c', ws, a, b, hba, hcl, hsub⟩ := C71_end_to_end (exHooks_benign env) w w' pre post i _ _ c u scopes
            (hh ▸ hist) (hh ▸ hrun) (by rw [hw.1]; nofun) (by rw [hw.2.1]; nofun) (by rw [hw.2.2]; nofun) (Or.inl rfl)
          exact ⟨tok, access, c.clientId, u, scopes, row, now, j, sid, c', ws, a, _, rfl, hacc, browser_mono hba hh, hcl, hsub,
            hrow, hsays⟩
        | authorize p r0 => rw [hci] at hlc; exact absurd (hr.symm.trans hlc.2.1) nofun
        | revoke p r0 => rw [hci] at hlc; exact absurd (hr.symm.trans hlc.2.1) nofun
        | consent p r0 => rw [hci] at hlc; exact hlc.elim
    · cases ho
  · cases ho
  · cases ho
  · cases ho

/-- There is such a history: login, authorization, logout, and the exchange of the code. -/
example : ∃ h w' headers body cookie d tok, WHistory toyEnv (exHooks toyEnv) (fun _ => true) webReqs h ∧
    WRun toyEnv ⟨exStore, []⟩ h w' ∧ (webReqs 3).route = .token ∧ (webReqs 3).method = py! "POST" ∧
    (∀ kv ∈ (webReqs 3).headers, asciiLower kv.1 = kv.1) ∧
    WExec (app toyEnv (exHooks toyEnv) (fun _ => true) (webReqs 3)) (ofWeb 3 h) (.ok ⟨.response 200 headers body, cookie⟩) ∧
    jsonLoads toyFloat body = .ok (.dict d) ∧ Dict.get d (py! "id_token") = some (.str tok) := by
  have hsome : (webMember (py! "id_token") ((webSim webReqs webStory).2.2 3)).isSome = true := by decide +kernel
  obtain ⟨t, ht⟩ := Option.isSome_iff_exists.mp hsome
  obtain ⟨headers, body, cookie, d, h1, h2, h3⟩ := webMember_some ht
  exact ⟨_, _, headers, body, cookie, d, t, webSim_history _ _, webSim_run _ _, rfl, rfl, by decide, h1, h2, h3⟩

end Psion.Props
