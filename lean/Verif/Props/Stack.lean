import Verif.Example.StackRun
import Verif.Props.ExampleFlow
import Verif.Props.WebAnswer

/-!
# Property C90: the example application answers every request
-/

namespace Psion.Props

open Psion Spec Example

variable {env : OEnv} {emailOk : PyStr → Bool}

/-- C90, for any number of simultaneous requests: a request that arrives as the endpoints need it is answered, if every operation
of this request is performed without error on a database without lone surrogates, the clock runs, and stored codes have scopes. -/
theorem C90_performed_partial (env : OEnv) (hl : FloatLaws env.cr.fe) (hh : HashLengths env.he) (emailOk : PyStr → Bool) (req : WebRequest)
    (tr : List WEv) (out : ORes Served) (hacc : Acceptable req) (hw : RunsWell env tr)
    (h : WExec (app env (exHooks env) emailOk req) tr out) : ∃ sv, out = .ok sv := by
  unfold app at h
  cases hc : req.cookie with
  | none =>
    rw [hc] at h
    exact view_answers hl hh hacc (fun hu => absurd rfl hu) hw h
  | some c =>
    rw [hc] at h
    obtain ⟨-, -, -, a, rest, -, -, rfl, hp, hx⟩ := wexec_call h hw.performed
    have hw' : RunsWell env rest := ⟨hp, hw.clock, hw.codes⟩
    cases a with
    | none => exact view_answers hl hh hacc (fun hu => absurd rfl hu) hw' hx
    | some a =>
      cases a with
      | none => exact wexec_served ⟨_, rfl⟩ hx
      | some u => exact view_answers hl hh hacc (fun _ h0 => by rw [hc] at h0; cases h0) hw' hx

/-- C90, for any number of simultaneous requests: begin with a sound database, let nothing fail, and let nobody administer the
database meanwhile. Then a proper request that takes less than an hour is answered. -/
theorem C90_partial (env : OEnv) (hl : FloatLaws env.cr.fe) (hh : HashLengths env.he) (emailOk : PyStr → Bool)
    (reqs : Nat → WebRequest) (w w' : WStore) (l : List (Draw × WStep)) (hsound : SoundStore w.db) (htame : ∀ i, Tame (reqs i))
    (hist : WHistory env (exHooks env) emailOk reqs (stepsOf l)) (hrun : Operates env w l w')
    (i : Nat) (hproper : Proper (reqs i)) (hprompt : PromptFor i l) (out : ORes Served)
    (h : WExec (app env (exHooks env) emailOk (reqs i)) (ofWeb i (stepsOf l)) out) : ∃ sv, out = .ok sv := by
  have hgood : ∀ p ∈ l, GoodOp p.2.2.op := by
    rintro ⟨d, j, ev⟩ hp
    exact app_good (htame j) (hist j) ev (mem_ofWeb.mpr (List.mem_map.mpr ⟨_, hp, rfl⟩))
  have hall := operates_handled (m0 := w.db) ⟨hsound, rfl, rfl⟩ hrun hgood
  have hhandled : ∀ ev ∈ ofWeb i (stepsOf l), Handled env w.db ev := by
    intro ev hev
    obtain ⟨d, hm⟩ := mem_stepsOf (mem_ofWeb.mp hev)
    obtain ⟨w1, w2, h1, h2, h3⟩ := hall d i ev hm
    obtain ⟨h4, h5⟩ := prompt_draw hprompt hm
    exact ⟨d, w1, w2, h1, h2, h4, h5, h3⟩
  have hok := app_ops_ok hl hproper (wexec_partial h) hhandled
  refine C90_performed_partial env hl hh emailOk (reqs i) _ out hproper.toAcceptable ⟨?_, ?_, ?_⟩ h
  · intro ev hev
    obtain ⟨d, w1, w2, h1, -, -, -, h2⟩ := hhandled ev hev
    obtain ⟨a, ha⟩ := hok ev hev
    exact ⟨d, w1, w2, a, h1.sound.plain, h2, ha⟩
  · refine prompt_clock (env := env) hprompt (fun d j ev hm => ?_) ?_
    · obtain ⟨w1, w2, -, -, h2⟩ := hall d j ev hm
      exact ⟨w1, w2, h2⟩
    · intro ev hev
      obtain ⟨wev, hw, heq⟩ := List.mem_filterMap.mp hev
      obtain ⟨o, ans⟩ := wev
      cases o <;> cases heq
      exact hok _ hw
  · intro code ac hf
    have hlib := libOf_handled hhandled _ hf
    cases code with
    | str code => exact (handled_code hlib).1
    | _ =>
      obtain ⟨d, m, m', -, -, -, -, hop⟩ := hlib
      cases congrArg Prod.snd hop

/-! ## Histories of the example -/

/-- The history of a schedule, with the draws. -/
def wdrawn {α : Type} (env : OEnv) : List (Nat × Draw) → WStore → (Nat → WProg α) → List (Draw × WStep)
  | [], _, _ => []
  | (i, d) :: l, s, ps =>
    match ps i with
    | .done _ => wdrawn env l s ps
    | .op o k =>
      (d, i, ⟨o, (wOp env d s o).2⟩) :: wdrawn env l (wOp env d s o).1 (fun j => if j = i then k (wOp env d s o).2 else ps j)

/-- A check of `NewWeb`. -/
def newWeb (w : WStore) (d : Draw) : WOp → Bool
  | .lib o => newDraw w.db d o
  | .saveSession sid _ => !(w.sessions.map Prod.fst).contains sid
  | _ => true

/-- Are all draws new? -/
def newWebs {α : Type} (env : OEnv) : List (Nat × Draw) → WStore → (Nat → WProg α) → Bool
  | [], _, _ => true
  | (i, d) :: l, s, ps =>
    match ps i with
    | .done _ => newWebs env l s ps
    | .op o k => newWeb s d o && newWebs env l (wOp env d s o).1 (fun j => if j = i then k (wOp env d s o).2 else ps j)

theorem newWeb_iff {w : WStore} {d : Draw} {o : WOp} (h : newWeb w d o = true) : NewWeb w d o := by
  constructor
  · rintro o' rfl
    exact newDraw_iff h
  · rintro sid uid rfl hm
    simp [newWeb] at h
    obtain ⟨⟨a, b⟩, h1, rfl⟩ := List.mem_map.mp hm
    exact h _ h1

theorem wdrawn_steps {α : Type} (env : OEnv) (l : List (Nat × Draw)) (s : WStore) (ps : Nat → WProg α) :
    stepsOf (wdrawn env l s ps) = (wsim env l s ps).1 := by
  induction l generalizing s ps with
  | nil => rfl
  | cons x l ih =>
    obtain ⟨i, d⟩ := x
    unfold wdrawn wsim
    cases hp : ps i with
    | done r => exact ih s ps
    | op o k => exact congrArg (_ :: ·) (ih _ _)

theorem wdrawn_operates {α : Type} (env : OEnv) (l : List (Nat × Draw)) (s : WStore) (ps : Nat → WProg α)
    (h : newWebs env l s ps = true) : Operates env s (wdrawn env l s ps) (wsim env l s ps).2.1 := by
  induction l generalizing s ps with
  | nil => exact .nil s
  | cons x l ih =>
    obtain ⟨i, d⟩ := x
    unfold newWebs at h
    unfold wdrawn wsim
    cases hp : ps i with
    | done r =>
      rw [hp] at h
      exact ih s ps h
    | op o k =>
      rw [hp] at h
      obtain ⟨h1, h2⟩ := Bool.and_eq_true_iff.mp h
      exact .step _ _ _ _ _ _ _ rfl (newWeb_iff h1) (ih _ _ h2)

theorem wdrawn_draws {α : Type} {env : OEnv} {l : List (Nat × Draw)} {s : WStore} {ps : Nat → WProg α} :
    ∀ q ∈ wdrawn env l s ps, ∃ i, (i, q.1) ∈ l := by
  induction l generalizing s ps with
  | nil => intro q hq; cases hq
  | cons x l ih =>
    obtain ⟨i, d⟩ := x
    intro q hq
    unfold wdrawn at hq
    split at hq
    · obtain ⟨j, hj⟩ := ih q hq
      exact ⟨j, List.mem_cons_of_mem _ hj⟩
    · rcases List.mem_cons.mp hq with rfl | hq
      · exact ⟨i, List.mem_cons_self⟩
      · obtain ⟨j, hj⟩ := ih q hq
        exact ⟨j, List.mem_cons_of_mem _ hj⟩

theorem promptFor_stamps {i : Nat} {l : List (Draw × WStep)} (h : ∀ q ∈ l, q.1.stamp = 1 ∧ q.1.stamp2 = 1) : PromptFor i l := by
  have hall : ∀ t ∈ (l.filter fun p => decide (p.2.1 = i)).flatMap (fun p => [p.1.stamp, p.1.stamp2]), t = 1 := by
    intro t ht
    obtain ⟨q, hq, ht⟩ := List.mem_flatMap.mp ht
    obtain ⟨h1, h2⟩ := h q (List.mem_filter.mp hq).1
    simp only [List.mem_cons, List.not_mem_nil, or_false] at ht
    rcases ht with rfl | rfl
    · exact h1
    · exact h2
  unfold PromptFor
  refine List.Pairwise.imp_of_mem (R := fun _ _ => True) ?_ (List.pairwise_of_forall (fun _ _ => trivial))
  intro a b ha hb _
  rw [hall a ha, hall b hb]
  decide

theorem exStore_sound : SoundStore exStore := by
  refine ⟨⟨?_, ?_, ?_, ?_⟩, ?_, ?_⟩
  · intro row hrow
    cases List.mem_singleton.mp hrow
    exact exUser_plain
  · intro row hrow
    cases List.mem_singleton.mp hrow
    exact ⟨encodable_ascii (s := py! "c1") (by decide),
      fun s hs => encodable_ascii ((by decide : ∀ s ∈ exClient.scopes, ∀ c ∈ s, c < 128) s hs)⟩
  · intro code ac h; cases h
  · intro rt h; cases h
  · intro code ac h; cases h
  · intro rt h; cases h

/-- There is a history of these requests as in `C90_partial`, and the request number `i` ends with this outcome. -/
def Ends (reqs : Nat → WebRequest) (i : Nat) (out : ORes Served) : Prop :=
  ∃ l w', SoundStore exStore ∧ WHistory toyEnv (exHooks toyEnv) (fun _ => true) reqs (stepsOf l) ∧
    Operates toyEnv ⟨exStore, []⟩ l w' ∧ PromptFor i l ∧
    WExec (app toyEnv (exHooks toyEnv) (fun _ => true) (reqs i)) (ofWeb i (stepsOf l)) out

/-- A schedule of three requests, one after the other. -/
def stackTurns : List (Nat × Draw) := exTurn 0 4 2 ++ exTurn 1 4 0 ++ exTurn 2 13 1

theorem stackTurns_stamps : ∀ x ∈ stackTurns, x.2.stamp = 1 ∧ x.2.stamp2 = 1 := by
  intro x hx
  simp only [stackTurns, exTurn, List.mem_append, List.mem_replicate] at hx
  rcases hx with (⟨-, rfl⟩ | ⟨-, rfl⟩) | ⟨-, rfl⟩ <;> exact ⟨rfl, rfl⟩

/-- Do the draws of the schedule fit? -/
def stackNew (reqs : Nat → WebRequest) : Bool :=
  newWebs toyEnv stackTurns ⟨exStore, []⟩ (fun i => app toyEnv (exHooks toyEnv) (fun _ => true) (reqs i))

theorem ends_of {reqs : Nat → WebRequest} {i : Nat} {out : ORes Served} (hnew : stackNew reqs = true)
    (h : WExec (app toyEnv (exHooks toyEnv) (fun _ => true) (reqs i)) (ofWeb i (webSim reqs stackTurns).1) out) :
    Ends reqs i out := by
  have hs := wdrawn_steps toyEnv stackTurns ⟨exStore, []⟩ (fun i => app toyEnv (exHooks toyEnv) (fun _ => true) (reqs i))
  refine ⟨_, _, exStore_sound, ?_, wdrawn_operates toyEnv stackTurns _ _ hnew, promptFor_stamps ?_, ?_⟩
  · rw [hs]; exact webSim_history reqs stackTurns
  · intro q hq
    obtain ⟨j, hj⟩ := wdrawn_draws q hq
    exact stackTurns_stamps _ hj
  · rw [hs]; exact h

theorem ends_error {reqs : Nat → WebRequest} {i : Nat} {e : Exc}
    (h : (stackNew reqs && webEscapes e ((webSim reqs stackTurns).2.2 i)) = true) : Ends reqs i (.error (.py e)) := by
  obtain ⟨h1, h2⟩ := Bool.and_eq_true_iff.mp h
  exact ends_of h1 (webEscapes_exec h2)

/-- The parameters of an authorization request with this method of the challenge, these scopes, and further parameters. -/
def stackParams (method scope more : PyStr) : PyStr :=
  py! "response_type=code&client_id=c1&redirect_uri=https://c/cb&state=s&code_challenge=" ++ toyVerifier ++
    py! "&code_challenge_method=" ++ method ++ py! "&scope=" ++ scope ++ more

/-- A login, this request for an authorization, and a third request. -/
def stackReqs (params : PyStr) (third : WebRequest) : Nat → WebRequest
  | 0 => webLogin [] (py! "correct horse")
  | 1 => webGet .authorize (py! "/connect/authorize") params (some webCookie)
  | _ => third

/-- A token request with this verifier and this code. -/
def stackExchange (verifier code : Bytes) : WebRequest :=
  { webExchange with body := by! "grant_type=authorization_code&redirect_uri=https://c/cb&code_verifier=" ++ verifier ++ code }

/-- C90 is violated: a request for an authorization without nonce ends with a `KeyError`. -/
theorem C90_refuted_nonce : Ends (stackReqs (stackParams (py! "plain") (py! "openid") []) webExchange) 1 (.error (.py .keyErr)) :=
  ends_error (by decide +kernel)

/-- C90 is violated: with a nonce of 257 characters, with an error of the database. -/
theorem C90_refuted_long_nonce :
    Ends (stackReqs (stackParams (py! "plain") (py! "openid") (py! "&nonce=" ++ List.replicate 257 110)) webExchange) 1
      (.error (.py (.ext 1))) := ends_error (by decide +kernel)

/-- C90 is violated: the exchange of a code for blank scopes ends with a `KeyError`. -/
theorem C90_refuted_blank :
    Ends (stackReqs (stackParams (py! "plain") (py! "%20") (py! "&nonce=n")) webExchange) 2 (.error (.py .keyErr)) :=
  ends_error (by decide +kernel)

/-- C90 is violated: the exchange without code ends with a `KeyError`. -/
theorem C90_refuted_code : Ends (stackReqs webParams (stackExchange (by! "v") [])) 2 (.error (.py .keyErr)) :=
  ends_error (by decide +kernel)

/-- C90 is violated: a verifier `ä` ends with a `UnicodeEncodeError`. -/
theorem C90_refuted_verifier :
    Ends (stackReqs (stackParams (py! "S256") (py! "openid") (py! "&nonce=n")) (stackExchange (by! "%C3%A4") (by! "&code=" ++ exCode))) 2
      (.error (.py .unicodeEncode)) := ends_error (by decide +kernel)

/-- C90 is violated: a header `Basic ä` ends with a `ValueError`. -/
theorem C90_refuted_header :
    Ends (stackReqs webParams { webExchange with headers := [(py! "authorization", py! "Basic " ++ [228])] }) 2 (.error (.py .valueErr)) :=
  ends_error (by decide +kernel)

/-- C90 is violated: a revocation request without token ends with an `AttributeError`. -/
theorem C90_refuted_revoke : Ends (stackReqs webParams webRevoke) 2 (.error (.py .attrErr)) := ends_error (by decide +kernel)

/-- C90 is violated: a `HEAD` request for an authorization ends with a `RuntimeError`. -/
theorem C90_refuted_head : Ends (stackReqs webParams { webAuthorize with method := py! "HEAD" }) 2 (.error (.py .runtimeErr)) :=
  ends_error (by decide +kernel)

/-- C90 is violated: a token request with the header `Host: [` ends with a `ValueError`. -/
theorem C90_refuted_host : Ends (stackReqs webParams webBracket) 2 (.error (.py .valueErr)) := ends_error (by decide +kernel)

/-! ## The hypotheses are satisfiable -/

theorem seen_data {req : WebRequest} {user : Option User} {r : Request} (ha : ArrivesAs req user r) :
    r.data = Dict.update (urldecode (urlQuery req.url)) (urldecode (toStringB req.body)) := by
  unfold Request.data Request.form
  rw [ha.query, ha.body]

theorem arrives_bare {req : WebRequest} (h : req.headers = []) :
    ArrivesAs req none ⟨req.method, urldecode (urlQuery req.url), [], some req.body, none⟩ :=
  ⟨rfl, rfl, rfl, rfl, fun _ => by rw [h]; rfl⟩

theorem webExchange_form (user : Option User) (r : Request) (ha : ArrivesAs webExchange user r) : TokenForm r := by
  have hauth : ∀ auth, Sent r.headers auth → auth = py! "Basic YzE6czM=" := by
    intro auth hs
    have h1 : Dict.get r.headers (py! "authorization") = some (py! "Basic YzE6czM=") := by rw [ha.headers]; decide +kernel
    rcases hs with ⟨h2, -⟩ | ⟨h2, -⟩
    · rw [h1] at h2; exact (Option.some.inj h2).symm
    · exact absurd (h2 _ h1) (by decide)
  refine ⟨?_, ?_, ?_⟩
  · rintro (⟨auth, hs, -, hno⟩ | ⟨t, ⟨auth, word, hs, -, hp, -⟩, c, hc, h128⟩)
    · rw [hauth auth hs] at hno
      exact hno (py! "Basic") (py! "YzE6czM=") ⟨[], py! " ", 89, py! "zE6czM=", by decide, by unfold Blank; decide, by unfold Blank; decide,
        by decide, by decide, by decide, by decide, by decide⟩
    · obtain ⟨a, b, -, -, heq, -⟩ := hp
      have : c ∈ auth := by rw [heq]; exact List.mem_append_right _ hc
      rw [hauth auth hs] at this
      exact absurd h128 (Nat.not_le.mpr ((by decide : ∀ c ∈ py! "Basic YzE6czM=", c < 128) c this))
  · intro _
    rw [seen_data ha]
    decide +kernel
  · intro v hv
    rw [seen_data ha] at hv
    have h1 : Dict.get (Dict.update (urldecode (urlQuery webExchange.url)) (urldecode (toStringB webExchange.body)))
        (py! "code_verifier") = some toyVerifier := by decide +kernel
    rw [h1] at hv
    cases hv
    decide

/-- The exchange of the code is a proper request. -/
theorem webExchange_proper : Proper webExchange where
  names := by decide
  plain := ⟨encodable_ascii (by decide +kernel), encodable_ascii (by decide +kernel), encodable_ascii (by decide +kernel)⟩
  host := fun h => absurd (urlRefused_iff.mpr h) (by decide +kernel)
  method := nofun
  token := fun _ _ => webExchange_form
  revoke := nofun
  nonce := nofun

/-- The request for the authorization is a proper request. -/
theorem webAuthorize_proper : Proper webAuthorize where
  names := by decide
  plain := ⟨encodable_ascii (by decide +kernel), encodable_ascii (by decide +kernel), encodable_ascii (by decide +kernel)⟩
  host := fun h => absurd (urlRefused_iff.mpr h) (by decide +kernel)
  method := fun _ => by decide
  token := nofun
  revoke := nofun
  nonce := by
    intro _ _ user r ha
    refine ⟨py! "n", ?_, by decide, by decide⟩
    rw [seen_data ha]
    decide +kernel

theorem stackReqs_tame : ∀ i, Tame (stackReqs webParams webExchange i)
  | 0 => ⟨by decide, nofun⟩
  | 1 => ⟨by decide, by
      intro _ user r s ha hs hw
      rw [seen_data ha] at hs
      have h1 : Dict.get (Dict.update (urldecode (urlQuery (stackReqs webParams webExchange 1).url))
          (urldecode (toStringB (stackReqs webParams webExchange 1).body))) (py! "scope") = some (py! "openid") := by decide +kernel
      rw [h1] at hs
      cases hs
      have := words_iff.mp hw
      exact absurd this (by decide +kernel)⟩
  | _ + 2 => ⟨fun kv h => webExchange_proper.names kv h, nofun⟩

/-- A login, an authorization and an exchange: C90 applies, and the last two requests are answered with 303 and 200. -/
example : (∀ i, Tame (stackReqs webParams webExchange i)) ∧
    Proper (stackReqs webParams webExchange 1) ∧ Proper (stackReqs webParams webExchange 2) ∧
    (∃ headers body cookie, Ends (stackReqs webParams webExchange) 1 (.ok ⟨.response 303 headers body, cookie⟩)) ∧
    ∃ headers body cookie, Ends (stackReqs webParams webExchange) 2 (.ok ⟨.response 200 headers body, cookie⟩) := by
  have hnew : stackNew (stackReqs webParams webExchange) = true := by decide +kernel
  refine ⟨stackReqs_tame, webAuthorize_proper, webExchange_proper, ?_, ?_⟩
  · obtain ⟨h, b, c, hx⟩ := webStatus_exec (reqs := stackReqs webParams webExchange) (l := stackTurns) (i := 1) (n := 303) (by decide +kernel)
    exact ⟨h, b, c, ends_of hnew hx⟩
  · obtain ⟨h, b, c, hx⟩ := webStatus_exec (reqs := stackReqs webParams webExchange) (l := stackTurns) (i := 2) (n := 200) (by decide +kernel)
    exact ⟨h, b, c, ends_of hnew hx⟩

/-- The request for blank scopes is not tame; all other requests of `C90_refuted_blank` are as they should be. -/
example : ¬ Tame (stackReqs (stackParams (py! "plain") (py! "%20") (py! "&nonce=n")) webExchange 1) := by
  intro h
  have ha := arrives_bare (req := stackReqs (stackParams (py! "plain") (py! "%20") (py! "&nonce=n")) webExchange 1) rfl
  refine h.scope rfl none _ (py! " ") ha (by rw [seen_data ha]; decide +kernel) ?_
  exact .space 32 [] [] (by decide) .nil

end Psion.Props
