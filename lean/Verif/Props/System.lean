import Verif.Props.ToyExample

/-!
# Properties C43, C52, C64: histories of interleaved and crashed requests
-/

namespace Psion.Props

open Psion Spec Example

/-! ## C52 -/

/-- In this history the client was authorized, by the user with the id of `u` (if it is known), for at least these scopes. -/
def AuthorizedFor (env : OEnv) (table : Hooks) (calls : Nat → Call) (h : List Step) (c : Client) (u : Option User)
    (scopes : List PyStr) : Prop :=
  ∃ j p req code data c' u' ws, Authorization env table calls h j p req code data c' u' ∧ c'.clientId = c.clientId ∧
    (∀ x, u = some x → u'.userId = x.userId) ∧ Dict.get data (py! "scopes") = some (strList ws) ∧ ∀ s ∈ scopes, s ∈ ws

theorem created_authorized {env : OEnv} {table : Hooks} (hb : Benign table) {calls : Nat → Call} {h : List Step}
    (hist : History env table calls h) (hon : Honest h) : ∀ n pre i ev post c u scopes, pre.length = n →
    h = pre ++ (i, ev) :: post → CreatesToken ev.op c u scopes → AuthorizedFor env table calls pre c u scopes := by
  intro n
  induction n using Nat.strongRecOn with
  | ind n ih =>
    intro pre i ev post c u scopes hn hh hc
    subst hh
    obtain ⟨p, req, hcall, g, -, -, -, hauth, hj⟩ := create_justified hb hist hc
    cases g with
    | authorizationCode =>
      obtain ⟨x, hx, code, ac, uri, v, now, h1, h2, h3, h4, h5, h6, h7, h8, h9, h10, h11, rfl⟩ := hj
      cases hx
      obtain ⟨j, p', req', data, c', u', ha, hst⟩ := found_code_authorized hb hist hon h2
      refine ⟨j, p', req', code, data, c', u', ac.scopes, ha, ?_, ?_, hst.scopes, fun s hs => hs⟩
      · rw [← hst.client, h3]
      · rintro _ ⟨⟩
        rw [← hst.user]
        exact (hon.user i _ x (List.mem_append_left _ (mem_ofRequest.mp h11))).symm
    | clientCredentials => exact absurd hj.1 nofun
    | refreshToken =>
      obtain ⟨x, hx, token, rt, now, base, h1, h2, h3, h4, h5, h6, h7, -, -, h8⟩ := hj
      cases hx
      obtain ⟨a, b, hab⟩ := List.append_of_mem (mem_ofRequest.mp h2)
      obtain ⟨j, c0, u0, ans, hm, hc0, hu0⟩ := hon.refresh a i token rt (b ++ (i, ev) :: post) (by simp [hab])
      obtain ⟨a1, a2, rfl⟩ := List.append_of_mem hm
      have hlen : a1.length < n := by rw [← hn, hab]; simp
      obtain ⟨j', p', req', code, data, c', u', ws, g1, g2, g3, g4, g5⟩ := ih _ hlen a1 j ⟨.createRefresh c0 (some u0) rt.scopes, ans⟩
        (a2 ++ (i, ⟨.getRefresh token, .ok (some rt)⟩) :: b ++ (i, ev) :: post) c0 (some u0) rt.scopes rfl
        (by simp [hab]) (Or.inr rfl)
      refine ⟨j', p', req', code, data, c', u', ws, authorization_mono g1 ?_, ?_, ?_, g4, ?_⟩
      · intro s hs; rw [hab]; simp [hs]
      · rw [g2, ← hc0, h3]
      · rintro y rfl
        rw [g3 u0 rfl, ← hu0]
        exact (hon.user i _ y (List.mem_append_left _ (mem_ofRequest.mp h6))).symm
      · obtain ⟨m, id, hf, -⟩ := hauth
        have hnar := hon.narrows i id c (List.mem_append_left _ (mem_ofRequest.mp hf))
        intro s hs
        exact g5 s (h7 s (hnar base scopes h8 s hs))

/-- C52: in every history of interleaved and possibly crashed requests against an adapter that only returns what was stored,
every access token created for a user was preceded by an authorization of the same client, by this user, for at least these
scopes. The same is true of refresh tokens. -/
theorem C52_no_escalation (env : OEnv) (table : Hooks) (hb : Benign table) (calls : Nat → Call) (pre post : List Step)
    (i : Nat) (ev : Ev) (hist : History env table calls (pre ++ (i, ev) :: post)) (hon : Honest (pre ++ (i, ev) :: post))
    (c : Client) (u : Option User) (scopes : List PyStr)
    (hc : ev.op = .createAccess c (.user u) scopes ∨ ev.op = .createRefresh c u scopes) :
    AuthorizedFor env table calls pre c u scopes :=
  created_authorized hb hist hon _ pre i ev post c u scopes rfl rfl hc

/-- C52 for the example application, without assumptions about the adapter: whatever requests arrive, in whatever order their
operations take place, wherever they fail, and whatever the rest of the application does to the database. -/
theorem C52_example (env : OEnv) (table : Hooks) (hb : Benign table) (calls : Nat → Call) (s s' : Store)
    (h0 : s.codes = []) (h1 : s.refresh = []) (pre post : List Step)
    (i : Nat) (ev : Ev) (hist : History env table calls (pre ++ (i, ev) :: post))
    (hrun : ExRun env s (pre ++ (i, ev) :: post) s')
    (c : Client) (u : Option User) (scopes : List PyStr)
    (hc : ev.op = .createAccess c (.user u) scopes ∨ ev.op = .createRefresh c u scopes) :
    AuthorizedFor env table calls pre c u scopes :=
  C52_no_escalation env table hb calls pre post i ev hist (run_honest hrun h0 h1) c u scopes hc

/-- An authorization and an exchange of the code with the example application create an access token for `openid`. -/
example : redeems 1 [py! "openid"] (exSim exCalls (exTurn 0 3 0 ++ exTurn 1 13 1)).1 = true := by decide +kernel

/-- The conclusion excludes something: without an authorization before, nothing is authorized. -/
example (env : OEnv) (table : Hooks) (calls : Nat → Call) (c : Client) (u : Option User) (scopes : List PyStr) :
    ¬ AuthorizedFor env table calls [] c u scopes := by
  rintro ⟨j, p, req, code, data, c', u', ws, ha, -⟩
  obtain ⟨ans, hm⟩ := ha.saved
  cases hm

/-! ## C64 -/

/-- C64: an access token obtained with an authorization code is preceded by the authorization that issued this code: by a
request of the same user for the same client, with the redirect URI that is presented now, for exactly these scopes, and with the
code challenge that belongs to the verifier presented now. -/
theorem C64_end_to_end (env : OEnv) (table : Hooks) (hb : Benign table) (calls : Nat → Call) (pre post : List Step)
    (i : Nat) (c : Client) (owner : Owner) (scopes : List PyStr) (ans : ORes PyStr) (p : Provider) (req : Request)
    (hist : History env table calls (pre ++ (i, ⟨.createAccess c owner scopes, ans⟩) :: post))
    (hon : Honest (pre ++ (i, ⟨.createAccess c owner scopes, ans⟩) :: post))
    (hcall : calls i = .token p req)
    (hg : Dict.get req.data (py! "grant_type") = some (py! "authorization_code")) :
    ∃ j p' req' code data c' u, Authorization env table calls pre j p' req' code data c' u ∧
      Dict.get req.data (py! "code") = some code ∧
      c'.clientId = c.clientId ∧ Authenticated req none (ofRequest i pre) c ∧
      (∃ x, owner = .user (some x) ∧ x.userId = u.userId ∧ req'.user = some u) ∧
      Dict.get data (py! "scopes") = some (strList scopes) ∧
      (∃ text, Dict.get req'.data (py! "scope") = some text ∧ Words text scopes) ∧
      (∃ uri, Dict.get req.data (py! "redirect_uri") = some uri ∧ Dict.get req'.data (py! "redirect_uri") = some uri ∧
        uri ∈ c.redirectUris ∧ uri ∈ c'.redirectUris) ∧
      ∃ v ch, Dict.get req.data (py! "code_verifier") = some v ∧ Dict.get req'.data (py! "code_challenge") = some ch ∧
        (Dict.get req'.data (py! "code_challenge_method") = some (py! "plain") ∧ ch = v ∨
          Dict.get req'.data (py! "code_challenge_method") = some (py! "S256") ∧ (∀ c ∈ v, c < 128) ∧
            ch = asciiStr (b64urlEncode (env.sha256 (v.map byte)))) := by
  have hd := history_did hist
  rw [hcall] at hd
  obtain ⟨g, -, ht, -, hauth, hj⟩ := access_justified hb hd
  rw [hg] at ht
  obtain rfl : GrantClass.authorizationCode = g := grantName_inj (Option.some.inj ht)
  obtain ⟨x, rfl, code, ac, uri, v, now, h1, h2, h3, h4, h5, h6, h7, h8, h9, h10, h11, rfl⟩ := hj
  obtain ⟨j, p', req', data, c', u, ha, hst⟩ := found_code_authorized hb hist hon h2
  have hA := ha.authorizes
  refine ⟨j, p', req', code, data, c', u, ha, h1, ?_, hauth, ⟨x, rfl, ?_, hA.user⟩, hst.scopes, ?_, ?_, ?_⟩
  · rw [← hst.client, h3]
  · rw [← hst.user]
    exact hon.user i _ x (List.mem_append_left _ (mem_ofRequest.mp h11))
  · obtain ⟨text, ws, al, k1, k2, k3, -⟩ := hA.scopes
    rw [hst.scopes] at k3
    have : ac.scopes = ws := by
      have := Option.some.inj k3
      unfold strList at this
      have := Val.list.inj this
      exact List.map_inj_right (fun _ _ h => Val.str.inj h) |>.mp this
    exact ⟨text, k1, this ▸ k2⟩
  · obtain ⟨uri', k1, k2, k3⟩ := hA.uri
    rw [hst.uri] at k3
    have : ac.redirectUri = uri' := Val.str.inj (Option.some.inj k3)
    subst this
    exact ⟨uri, h4, h5 ▸ k1, h6, h5 ▸ k2⟩
  · obtain ⟨ch, k1, -, -, k2⟩ := hA.challenge
    obtain ⟨m, l1, -, l2⟩ := hA.method
    rw [hst.challenge] at k2
    rw [hst.method] at l2
    cases k2
    cases l2
    refine ⟨v, _, h7, k1, ?_⟩
    rcases h8 with ⟨e1, e2⟩ | ⟨e1, e2, e3⟩
    · exact Or.inl ⟨e1 ▸ l1, e2⟩
    · exact Or.inr ⟨e1 ▸ l1, e2, e3⟩

/-- The hypotheses are met by the history of the example application above. -/
example : History toyEnv (exHooks toyEnv) exCalls (exSim exCalls (exTurn 0 3 0 ++ exTurn 1 13 1)).1 ∧
    Honest (exSim exCalls (exTurn 0 3 0 ++ exTurn 1 13 1)).1 ∧ Benign (exHooks toyEnv) :=
  ⟨exSim_history _ _ exCalls_plain, exSim_honest _ _, exHooks_benign _⟩

/-! ## C43 -/

/-- A request that redeems a code has found it. -/
theorem redeems_found {env : OEnv} {table : Hooks} (hb : Benign table) {calls : Nat → Call} {h : List Step}
    (hist : History env table calls h) {j : Nat} {code : PyStr} (hr : Redeems calls h j code) :
    ∃ ac, (j, (⟨.getCode (.str code), .ok (some ac)⟩ : Ev)) ∈ h := by
  obtain ⟨p, req, hcall, hg, hcode⟩ := hr.call
  obtain ⟨c, owner, scopes, ans, hm⟩ := hr.created
  obtain ⟨a, b, rfl⟩ := List.append_of_mem hm
  have hd := history_did hist
  rw [hcall] at hd
  obtain ⟨code', ac, uri, u, h1, h2, -⟩ := C40_code_binding env table hb p req _ _ c owner scopes ans hg hd
  rw [hcode] at h1
  cases h1
  exact ⟨ac, List.mem_append_left _ (mem_ofRequest.mp h2)⟩

/-- C43, the window: whoever redeems a stored code has read it before the first successful deletion of the code. -/
theorem C43_window (env : OEnv) (table : Hooks) (hb : Benign table) (calls : Nat → Call) (a b : List Step)
    (i : Nat) (code : PyStr)
    (hist : History env table calls (a ++ (i, ⟨.deleteCode (.str code), .ok ()⟩) :: b))
    (hdel : Deletes (a ++ (i, ⟨.deleteCode (.str code), .ok ()⟩) :: b))
    (hf : FreshCodes (a ++ (i, ⟨.deleteCode (.str code), .ok ()⟩) :: b))
    (hs : ∃ l data cl u ans, (l, (⟨.saveCode code data cl u, ans⟩ : Ev)) ∈ a)
    (j : Nat) (hr : Redeems calls (a ++ (i, ⟨.deleteCode (.str code), .ok ()⟩) :: b) j code) :
    ∃ ac, (j, (⟨.getCode (.str code), .ok (some ac)⟩ : Ev)) ∈ a := by
  obtain ⟨ac, hm⟩ := redeems_found hb hist hr
  rcases List.mem_append.mp hm with hm | hm
  · exact ⟨ac, hm⟩
  · rcases List.mem_cons.mp hm with hm | hm
    · cases hm
    · exfalso
      obtain ⟨b1, b2, rfl⟩ := List.append_of_mem hm
      obtain ⟨l', code', data', cl', u', ans', he, hm'⟩ := hdel a i (.str code) b1 j ac b2 (by simp)
      cases he
      obtain ⟨l, data, cl, u, ans, hs⟩ := hs
      obtain ⟨a1, a2, rfl⟩ := List.append_of_mem hs
      obtain ⟨c1, c2, rfl⟩ := List.append_of_mem hm'
      refine hf a1 l code data cl u ans (a2 ++ (i, ⟨.deleteCode (.str code), .ok ()⟩) :: c1) l' data' cl' u' ans'
        (c2 ++ (j, ⟨.getCode (.str code), .ok (some ac)⟩) :: b2) (by simp)

/-- C43 for requests that do not overlap: after a request was answered with the tokens for a code, no request that begins later
creates an access token from this code. Missing are requests that begin before (`C43_refuted`). -/
theorem C43_partial (env : OEnv) (table : Hooks) (hb : Benign table) (calls : Nat → Call) (a b : List Step)
    (hist : History env table calls (a ++ b)) (hon : Honest (a ++ b)) (hdel : Deletes (a ++ b)) (hf : FreshCodes (a ++ b))
    (i : Nat) (p : Provider) (req : Request) (code : PyStr) (r : Response)
    (hg : Dict.get req.data (py! "grant_type") = some (py! "authorization_code"))
    (hcode : Dict.get req.data (py! "code") = some code)
    (hdone : Exec (p.token env table req) (ofRequest i a) (.ok r)) (hok : r.status = 200)
    (j : Nat) (hlater : ofRequest j a = []) : ¬ Redeems calls (a ++ b) j code := by
  intro hr
  rcases token_response hb hdone with ⟨token, ⟨g, c, hu, hd⟩, hj⟩ | ⟨x, -, hj⟩
  · have ht := hu.type
    rw [hg] at ht
    have : GrantClass.authorizationCode = g := grantName_inj (Option.some.inj ht)
    subst this
    obtain ⟨⟨code', ac, -, -, -, -, -, h1, h2, -⟩, code'', h3, ⟨init, h4⟩⟩ := hd
    rw [del_code, hcode] at h1
    rw [hcode] at h3
    cases h1
    cases h3
    obtain ⟨a1, a2, rfl, h5⟩ := ofRequest_last h4
    have hget : (i, (⟨.getCode (.str code), .ok (some ac)⟩ : Ev)) ∈ a1 := by
      rw [← mem_ofRequest, h5]
      unfold FoundCode at h2
      rw [h4] at h2
      rcases List.mem_append.mp h2 with h2 | h2
      · exact h2
      · cases List.mem_singleton.mp h2
    have hsplit : a1 ++ (i, (⟨.deleteCode (.str code), .ok ()⟩ : Ev)) :: a2 ++ b =
        a1 ++ (i, (⟨.deleteCode (.str code), .ok ()⟩ : Ev)) :: (a2 ++ b) := by simp
    rw [hsplit] at hist hon hdel hf hr
    obtain ⟨c1, c2, rfl⟩ := List.append_of_mem hget
    obtain ⟨l, code', data, cl, u, ans, hm, he, -⟩ := hon.code c1 i (.str code) ac
      (c2 ++ (i, (⟨.deleteCode (.str code), .ok ()⟩ : Ev)) :: (a2 ++ b)) (by simp)
    cases he
    obtain ⟨ac', hm'⟩ := C43_window env table hb calls _ _ i code hist hdel hf
      ⟨l, data, cl, u, ans, List.mem_append_left _ hm⟩ j hr
    have : (⟨.getCode (.str code), .ok (some ac')⟩ : Ev) ∈ ofRequest j (c1 ++
        (i, (⟨.getCode (.str code), .ok (some ac)⟩ : Ev)) :: c2 ++ (i, (⟨.deleteCode (.str code), .ok ()⟩ : Ev)) :: a2) :=
      mem_ofRequest.mpr (List.mem_append_left _ hm')
    rw [hlater] at this
    cases this
  · rw [(jsonResponse_status hj).1] at hok
    cases hok

/-- The schedule of the race: the second exchange takes place between the last read of the first one and its deletion of the
code. -/
def race : List (Nat × Draw) := exTurn 0 3 0 ++ exTurn 1 12 1 ++ exTurn 2 13 2 ++ exTurn 1 1 1

/-- C43 is violated: with the example application, two overlapping requests are both answered with tokens for the same code. -/
theorem C43_refuted : ∃ h s', History toyEnv (exHooks toyEnv) exCalls h ∧ ExRun toyEnv exStore h s' ∧ Honest h ∧ Deletes h ∧
    FreshCodes h ∧ Redeems exCalls h 1 toyDrawn ∧ Redeems exCalls h 2 toyDrawn ∧
    (∃ r, Exec (exProvider.token toyEnv (exHooks toyEnv) (exExchange exCode)) (ofRequest 1 h) (.ok r) ∧ r.status = 200) ∧
    ∃ r, Exec (exProvider.token toyEnv (exHooks toyEnv) (exExchange exCode)) (ofRequest 2 h) (.ok r) ∧ r.status = 200 :=
  ⟨(exSim exCalls race).1, (exSim exCalls race).2.1, exSim_history _ _ exCalls_plain, exSim_run _ _, exSim_honest _ _,
    run_deletes (exSim_run _ _), fresh_of_savings (by decide +kernel),
    exRedeems (scopes := [py! "openid"]) (by decide) (by decide +kernel),
    exRedeems (scopes := [py! "openid"]) (by decide) (by decide +kernel),
    finished_exec rfl (by decide +kernel), finished_exec rfl (by decide +kernel)⟩

/-- The schedule of the crash: the first exchange is never continued after it has created its tokens. -/
def crash : List (Nat × Draw) := exTurn 0 3 0 ++ exTurn 1 6 1 ++ exTurn 2 13 2

/-- C43 is violated by a crash as well: tokens were created, the process died before the code was deleted, and the next request
is answered with tokens for the same code. -/
theorem C43_refuted_crash : ∃ h s', History toyEnv (exHooks toyEnv) exCalls h ∧ ExRun toyEnv exStore h s' ∧ FreshCodes h ∧
    Redeems exCalls h 1 toyDrawn ∧ Redeems exCalls h 2 toyDrawn ∧
    (∃ a b, h = a ++ b ∧ ofRequest 1 b = [] ∧ ofRequest 2 a = []) ∧
    ∃ r, Exec (exProvider.token toyEnv (exHooks toyEnv) (exExchange exCode)) (ofRequest 2 h) (.ok r) ∧ r.status = 200 := by
  refine ⟨(exSim exCalls crash).1, (exSim exCalls crash).2.1, exSim_history _ _ exCalls_plain, exSim_run _ _,
    fresh_of_savings (by decide +kernel), exRedeems (scopes := [py! "openid"]) (by decide) (by decide +kernel),
    exRedeems (scopes := [py! "openid"]) (by decide) (by decide +kernel), ?_, finished_exec rfl (by decide +kernel)⟩
  refine ⟨(exSim exCalls crash).1.take 9, (exSim exCalls crash).1.drop 9, (List.take_append_drop _ _).symm, ?_, ?_⟩
  · exact List.eq_nil_of_length_eq_zero (by decide +kernel)
  · exact List.eq_nil_of_length_eq_zero (by decide +kernel)

/-- One after the other, the second exchange of the code is refused. -/
example : finished 200 ((exSim exCalls (exTurn 0 3 0 ++ exTurn 1 13 1 ++ exTurn 2 3 2)).2.2 1) = true ∧
    finished 400 ((exSim exCalls (exTurn 0 3 0 ++ exTurn 1 13 1 ++ exTurn 2 3 2)).2.2 2) = true := by decide +kernel

/-- The hypotheses of `C43_window` and `C43_partial` about the adapter are met by every history of the example application. -/
example (env : OEnv) (s s' : Store) (h0 : s.codes = []) (h1 : s.refresh = []) (h : List Step) (hr : ExRun env s h s') :
    Honest h ∧ Deletes h := ⟨run_honest hr h0 h1, run_deletes hr⟩

end Psion.Props
