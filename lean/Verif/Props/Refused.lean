import Verif.Props.Errors
import Verif.Props.ExampleOidc
import Verif.Spec.Alone
import Verif.OAuth.RefuseLemmas

/-!
# Property C147: a refused request has given nothing
-/

namespace Psion.Props

open Psion Spec Example

/-! ## The endpoints -/

/-- C147, token endpoint: if the answer is an error, and the application did not fail while it made the tokens, then no token was
made, not even attempted. -/
theorem C147_token (env : OEnv) (table : Hooks) (hb : Benign table) (p : Provider) (req : Request) (tr : List Ev)
    (r : Response) (h : Exec (p.token env table req) tr (.ok r)) (hst : r.status ≠ 200) (hno : ¬ GivingFailed table tr) :
    GaveNothing tr := by
  rcases wpp_exec_ok h (wpp_token_refuse hb p req) answers_true with h1 | h1 | h1
  · exact absurd h1 hst
  · exact absurd h1 hno
  · exact h1

/-- C147, authorization endpoint: the redirect carries the code that was stored, or no code was stored, unless the application
failed while it stored the code or afterwards. -/
theorem C147_authorize (env : OEnv) (table : Hooks) (hb : Benign table) (p : Provider) (req : Request) (tr : List Ev)
    (r : Response) (h : Exec (p.authorize env table req) tr (.ok r)) (hno : ¬ GivingFailed table tr) :
    GaveNothing tr ∨ ∃ url params code data c u, RedirectsTo r url params ∧
      Dict.get params (py! "code") = some (some code) ∧ (⟨.saveCode code data c u, .ok ()⟩ : Ev) ∈ tr := by
  rcases wpp_exec_ok h (wpp_authorize_refuse hb p req) answers_true with ⟨uri, code, response, url, hd, hu, hr⟩ | h1 | h1
  · have h1 := authorizeDone_response hb hd
    obtain ⟨c, u, valid, -, hs, -⟩ := hd.done
    refine Or.inr ⟨uri, _, code, valid, c, u, redirect_spec (ok_strParams env h1.1) (urlencodeVals_ok hu) hr, ?_, hs⟩
    rw [get_strParams, get_fullDict_some h1.2.1 (by simp)]
    rfl
  · exact absurd h1 hno
  · exact Or.inl h1

/-- C147, revocation endpoint: if the answer is not 200, and the adapter did not fail while it revoked the token, then nothing was
revoked. -/
theorem C147_revoke (env : OEnv) (p : Provider) (req : Request) (tr : List Ev) (a : Option Response)
    (h : Exec (p.revoke env req) tr (.ok a)) (hst : ∀ r, a = some r → r.status ≠ 200)
    (hno : ∀ c t k x, (⟨.revoke c t k, .error (.oauth x)⟩ : Ev) ∉ tr) : GaveNothing tr := by
  rcases wpp_exec_ok h (wpp_revoke_refuse env p req) answers_true with ⟨c, t, k, x, h1⟩ | h1 | ⟨r, h1, h2⟩
  · exact absurd h1 (hno c t k x)
  · exact h1
  · exact absurd h2 (hst r h1)

/-- Is the operation one that gives something? -/
def givesB : Op → Bool
  | .saveCode .. | .createAccess .. | .createRefresh .. | .revoke .. => true
  | _ => false

/-- A code of another client: the request is refused, and no token is made. The same request with a code of the client makes one. -/
example :
    isTokenError (py! "invalid_grant")
      (toyRun (toyAdapter toyClient { toyCode [] with clientId := py! "c2" } (toyRefresh [])) toyExchange).2 = true ∧
    (toyRun (toyAdapter toyClient { toyCode [] with clientId := py! "c2" } (toyRefresh [])) toyExchange).1.all
      (fun ev => !givesB ev.op) = true ∧
    (toyRun toyUsual toyExchange).1.any (fun ev => givesB ev.op) = true := by decide +kernel

/-- An authorization request for an unknown scope and a revocation with an unknown hint are refused, and no code is stored and nothing
revoked. The usual requests do so. -/
example :
    isRedirect (py! "https://c/cb?error=invalid_scope&error_description=Unsupported+scope+%22admin%22.&state=x+%26y")
      (toyAuth toyUsual (toyGet (Dict.set toyAuthQuery (py! "scope") (py! "admin")) (some toyUser))).2 = true ∧
    (toyAuth toyUsual (toyGet (Dict.set toyAuthQuery (py! "scope") (py! "admin")) (some toyUser))).1.all
      (fun ev => !givesB ev.op) = true ∧
    (toyAuth toyUsual (toyGet toyAuthQuery (some toyUser))).1.any (fun ev => givesB ev.op) = true ∧
    isAnswer 400 (by! "{\"error\": \"unsupported_token_type\"}")
      (toyRevoke toyUsual (toyPost (by! "token=r1&token_type_hint=pin"))).2 = true ∧
    (toyRevoke toyUsual (toyPost (by! "token=r1&token_type_hint=pin"))).1.all (fun ev => !givesB ev.op) = true ∧
    (toyRevoke toyUsual toyRevocation).1.any (fun ev => givesB ev.op) = true := by decide +kernel

/-- The adapter of the toy provider, that cannot make refresh tokens. -/
def noRefresh : List Ev → (o : Op) → ORes o.Ans
  | _, .createRefresh .. => .error (.oauth (.mk' .temporarilyUnavailable))
  | h, o => toyUsual h o

/-- The exception is needed: if the adapter raises an error when the refresh token is to be made, the answer is an error, but the
access token has been made. -/
example : isTokenError (py! "temporarily_unavailable") (toyRun noRefresh toyRefreshRequest).2 = true ∧
    (toyRun noRefresh toyRefreshRequest).1.any (fun ev => givesB ev.op) = true := by decide +kernel

/-! ## The example application -/

/-- The adapter raises no `OAuth2Error`. -/
theorem exOp_silent (env : OEnv) (d : Draw) (m : Store) (o : Op) (x : OErr) : (exOp env d m o).2 ≠ .error (.oauth x) := by
  have hl : ∀ {α : Type} (r : Res α), liftRes r ≠ .error (.oauth x) := by
    intro α r h
    cases r <;> cases h
  cases o with
  | saveCode code data c u =>
    show (saveCode m d code data c u).2 ≠ _
    unfold saveCode
    split
    · split
      · exact nofun
      · split <;> exact nofun
    · exact nofun
    · exact nofun
  | createAccess c ow s => exact hl _
  | createRefresh c u s =>
    show (createRefresh m d c u s).2 ≠ _
    unfold createRefresh
    split
    · exact nofun
    · split
      · exact nofun
      · split
        · exact nofun
        · split <;> exact nofun
  | getUserinfo u s =>
    simp only [exOp]
    split <;> exact nofun
  | _ => exact nofun

theorem exStep_silent {env : OEnv} {m m' : Store} {ev : Ev} (h : ExStep env m ev m') (x : OErr) : ev.ans ≠ .error (.oauth x) := by
  obtain ⟨d, h | ⟨⟨n, h⟩, -⟩⟩ := h
  · have e : (exOp env d m ev.op).2 = ev.ans := congrArg Prod.snd h
    rw [← e]
    exact exOp_silent env d m ev.op x
  · rw [h]
    exact nofun

theorem exRun_silent {env : OEnv} {s s' : Store} {h : List Step} (hr : ExRun env s h s') {i : Nat} {ev : Ev} (hev : (i, ev) ∈ h)
    (x : OErr) : ev.ans ≠ .error (.oauth x) := by
  induction hr with
  | nil => cases hev
  | step s s1 s2 j ev' h he _ ih =>
    rcases List.mem_cons.mp hev with he' | hev
    · cases he'
      exact exStep_silent he x
    · exact ih hev
  | outside s s1 s2 h _ _ ih => exact ih hev

/-- The hook of OpenID Connect raises no `OAuth2Error` of its own when it adds the ID token. -/
theorem idToken_silent {env : OEnv} {cfg : Config} {token data : Dict PyStr Val} {c : Client} {u : User} {tr : List Ev} {e : OExc}
    (h : Exec (oidcTokenResponse env cfg token data c u) tr (.error e)) (hp : ∀ ev ∈ tr, ∀ x, ev.ans ≠ .error (.oauth x)) (x : OErr) :
    e ≠ .oauth x := by
  have hw : WpP (fun _ ev => ∀ x, ev.ans ≠ .error (.oauth x)) (fun _ _ => True) (fun _ _ => True) (fun _ e => ∀ x, e ≠ .oauth x) []
      (oidcTokenResponse env cfg token data c u) := by
    unfold oidcTokenResponse
    have hc : ∀ (o : Op) (e : OExc), (∀ x, (⟨o, .error e⟩ : Ev).ans ≠ .error (.oauth x)) → ∀ x, e ≠ .oauth x := by
      rintro o e he x rfl
      exact he x rfl
    unfold item
    rw [wpp_bind, wpp_lift, post_liftRes]
    refine ⟨fun scope _ => ?_, fun _ _ => nofun⟩
    rw [wpp_bind, wpp_lift, post_liftRes]
    refine ⟨fun b _ => ?_, fun _ _ => nofun⟩
    rw [wpp_ite]
    refine ⟨fun _ => ?_, fun _ => trivial⟩
    rw [wpp_bind]
    unfold generateIdToken item
    rw [wpp_bind, wpp_call]
    refine ⟨trivial, fun info _ => ?_, fun e he => hc _ e he⟩
    rw [wpp_bind, wpp_lift, post_liftRes]
    refine ⟨fun scope' _ => ?_, fun _ _ => nofun⟩
    rw [wpp_bind, wpp_lift, post_liftRes]
    refine ⟨fun scopes _ => ?_, fun _ _ => nofun⟩
    rw [wpp_bind, wpp_call]
    refine ⟨trivial, fun userinfo _ => ?_, fun e he => hc _ e he⟩
    rw [wpp_bind, wpp_call]
    refine ⟨trivial, fun now _ => ?_, fun e he => hc _ e he⟩
    rw [wpp_bind, wpp_lift, post_liftRes]
    refine ⟨fun hash _ => ?_, fun _ _ => nofun⟩
    rw [wpp_bind, wpp_call]
    refine ⟨trivial, fun now1 _ => ?_, fun e he => hc _ e he⟩
    rw [wpp_bind, wpp_lift, post_liftRes]
    refine ⟨fun claims _ => ?_, fun _ _ => nofun⟩
    rw [wpp_bind, wpp_lift, post_liftRes]
    refine ⟨fun kid _ => ?_, fun _ _ => nofun⟩
    rw [wpp_bind, wpp_call]
    refine ⟨trivial, fun now2 _ => ?_, fun e he => hc _ e he⟩
    rw [wpp_bind, wpp_lift, post_liftRes]
    refine ⟨fun jwt _ => ?_, fun _ _ => nofun⟩
    rw [wpp_bind, wpp_call]
    refine ⟨trivial, fun seed _ => ?_, fun e he => hc _ e he⟩
    rw [wpp_lift, post_liftRes]
    exact ⟨fun _ _ => trivial, fun _ _ => nofun⟩
  refine wpp_exec_error h hw ?_ x
  rintro pre ev post rfl
  exact hp ev (by simp)

theorem exHooks_silent {env : OEnv} {tr : List Ev} (hp : ∀ ev ∈ tr, ∀ x, ev.ans ≠ .error (.oauth x)) :
    ¬ GivingFailed (exHooks env) tr := by
  rintro (⟨o, x, -, h⟩ | ⟨f, hf, -⟩ | ⟨f, hf, token, data, c, u, tr', x, hs, hx⟩)
  · exact hp _ h x rfl
  · exact nomatch hf
  · obtain rfl : f = oidcTokenResponse env exProvider.cfg := List.mem_singleton.mp hf
    exact idToken_silent hx (fun ev hev => hp ev (hs hev)) x rfl

theorem ofRequest_silent {env : OEnv} {s s' : Store} {h : List Step} (hr : ExRun env s h s') (i : Nat) :
    ∀ ev ∈ ofRequest i h, ∀ x, ev.ans ≠ .error (.oauth x) := by
  intro ev hev x
  exact exRun_silent hr (mem_ofRequest.mp hev) x

/-- C147, example application, tokens: in every history of the application, whatever the other requests do and however the database
fails, a token request that is answered with an error has made no token. -/
theorem C147_example_token (env : OEnv) (s s' : Store) (h : List Step) (hrun : ExRun env s h s') (i : Nat) (req : Request)
    (r : Response) (hx : Exec (exProvider.token env (exHooks env) req) (ofRequest i h) (.ok r)) (hst : r.status ≠ 200) :
    GaveNothing (ofRequest i h) :=
  C147_token env (exHooks env) (exHooks_benign env) exProvider req _ r hx hst (exHooks_silent (ofRequest_silent hrun i))

/-- C147, example application, codes: in every history, the redirect of an authorization request carries the code that was stored, or
no code was stored. -/
theorem C147_example_authorize (env : OEnv) (s s' : Store) (h : List Step) (hrun : ExRun env s h s') (i : Nat) (req : Request)
    (r : Response) (hx : Exec (exProvider.authorize env (exHooks env) req) (ofRequest i h) (.ok r)) :
    GaveNothing (ofRequest i h) ∨ ∃ url params code data c u, RedirectsTo r url params ∧
      Dict.get params (py! "code") = some (some code) ∧ (⟨.saveCode code data c u, .ok ()⟩ : Ev) ∈ ofRequest i h :=
  C147_authorize env (exHooks env) (exHooks_benign env) exProvider req _ r hx (exHooks_silent (ofRequest_silent hrun i))

/-- The code of the request, if there is one, is gone, and nothing else has changed. -/
theorem alone_nothing {env : OEnv} {m m' : Store} {l : List (Draw × Ev)} (h : Alone env m l m') (hn : GaveNothing (events l))
    {data : Dict PyStr PyStr} (hd : ∀ v a, (⟨.deleteCode v, a⟩ : Ev) ∈ events l → ∃ code, Dict.get data (py! "code") = some code ∧
      v = .str code) :
    m' = m ∨ ∃ code, Dict.get data (py! "code") = some code ∧
      m' = { m with codes := m.codes.filter (fun kv => decide (kv.1 ≠ code)) } := by
  induction h with
  | nil => exact Or.inl rfl
  | step m m1 m2 d ev l ho _ _ ih =>
    have ih := ih (fun e he => hn e (List.mem_cons_of_mem _ he)) (fun v a h => hd v a (List.mem_cons_of_mem _ h))
    have hg : ¬ Gives ev.op := hn ev (List.mem_cons_self ..)
    have e : m1 = (exOp env d m ev.op).1 := (congrArg Prod.fst ho).symm
    have key : m1 = m ∨ ∃ code, Dict.get data (py! "code") = some code ∧
        m1 = { m with codes := m.codes.filter (fun kv => decide (kv.1 ≠ code)) } := by
      rw [e]
      obtain ⟨o, a⟩ := ev
      cases o with
      | deleteCode v =>
        obtain ⟨code, hc, rfl⟩ := hd v a (List.mem_cons_self ..)
        exact Or.inr ⟨code, hc, rfl⟩
      | saveCode => exact absurd trivial hg
      | createAccess => exact absurd trivial hg
      | createRefresh => exact absurd trivial hg
      | revoke => exact absurd trivial hg
      | getUserinfo u s =>
        left
        simp only [exOp]
        split <;> rfl
      | _ => exact Or.inl rfl
    rcases key with rfl | ⟨code, hc, rfl⟩
    · exact ih
    · rcases ih with rfl | ⟨code', hc', rfl⟩
      · exact Or.inr ⟨code, hc, rfl⟩
      · rw [hc] at hc'
        cases hc'
        refine Or.inr ⟨code, hc, ?_⟩
        simp [List.filter_filter]

theorem token_deletes {env : OEnv} {table : Hooks} (hb : Benign table) {p : Provider} {req : Request} {tr : List Ev}
    (h : Partial (p.token env table req) tr) {v : Val} {a : ORes Unit} (hm : (⟨.deleteCode v, a⟩ : Ev) ∈ tr) :
    ∃ code, Dict.get req.data (py! "code") = some code ∧ v = .str code := by
  obtain ⟨ops, hw, hp⟩ := token_work hb h
  have hm := hp.subset (mem_storeOps hm rfl)
  cases hw <;> simp at hm <;> exact ⟨_, by assumption, hm⟩

/-- C147, example application, database: a token request that is answered with an error leaves the database as it was, except that
the code in the request is gone. -/
theorem C147_example_store (env : OEnv) (m m' : Store) (l : List (Draw × Ev)) (hal : Alone env m l m') (req : Request) (r : Response)
    (hx : Exec (exProvider.token env (exHooks env) req) (events l) (.ok r)) (hst : r.status ≠ 200) :
    m' = m ∨ ∃ code, Dict.get req.data (py! "code") = some code ∧
      m' = { m with codes := m.codes.filter (fun kv => decide (kv.1 ≠ code)) } := by
  have hp : ∀ ev ∈ events l, ∀ x, ev.ans ≠ .error (.oauth x) := by
    intro ev hev x
    clear hx
    induction hal with
    | nil => cases hev
    | step m m1 m2 d ev' l ho _ _ ih =>
      rcases List.mem_cons.mp hev with rfl | hev
      · exact exStep_silent ⟨d, Or.inl ho⟩ x
      · exact ih hev
  exact alone_nothing hal (C147_token env (exHooks env) (exHooks_benign env) exProvider req _ r hx hst (exHooks_silent hp))
    (fun v a h => token_deletes (exHooks_benign env) (exec_partial hx) h)

/-- There is such a history: a code is used twice. The second use is refused; it has made no token. -/
example : ∃ h s' r, History toyEnv (exHooks toyEnv) exCalls h ∧ ExRun toyEnv exStore h s' ∧
    Exec (exProvider.token toyEnv (exHooks toyEnv) (exExchange exCode)) (ofRequest 2 h) (.ok r) ∧ r.status = 400 ∧
    ofRequest 2 h ≠ [] ∧ GaveNothing (ofRequest 2 h) := by
  have hf : finished 400 ((exSim exCalls (exTurn 0 3 0 ++ exTurn 1 13 1 ++ exTurn 2 3 2)).2.2 2) = true := by decide +kernel
  obtain ⟨r, hx, hr⟩ := finished_exec (calls := exCalls) rfl hf
  refine ⟨_, _, r, exSim_history _ _ exCalls_plain, exSim_run _ _, hx, hr, ?_, ?_⟩
  · intro he
    have : ((ofRequest 2 (exSim exCalls (exTurn 0 3 0 ++ exTurn 1 13 1 ++ exTurn 2 3 2)).1).isEmpty) = false := by decide +kernel
    rw [he] at this
    cases this
  · exact C147_example_token toyEnv _ _ _ (exSim_run _ _) 2 _ r hx (by rw [hr]; decide)

end Psion.Props
