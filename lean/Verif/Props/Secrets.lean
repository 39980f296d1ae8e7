import Verif.Example.SecretLemmas
import Verif.Props.Challenge
import Verif.Props.WebLogin

/-!
# Properties C102, C103, C104: what the answers tell about stored secrets and passwords
-/

namespace Psion.Props

open Psion Spec Example

variable {env : OEnv} {table : Hooks} {σ : PyStr → Option PyStr → Option PyStr} {π : PyStr → PyStr → PyStr}

/-! ## C102 -/

/-- C102, authorization endpoint: whatever the secrets of the clients are, the answer is the same. -/
theorem C102_authorize (env : OEnv) (table : Hooks) (σ : PyStr → Option PyStr → Option PyStr) (hb : SecretBlind σ table)
    (p : Provider) (req : Request) (tr : List Ev) (out : ORes Response) (h : Exec (p.authorize env table req) tr out) :
    Exec (p.authorize env table req) (tr.map (otherEv σ)) out :=
  moves_exec (moves_authorize (objects_blind hb env p) p.cfg req) h

/-- C102, consent data: only the client that is passed to the application has its other secret. -/
theorem C102_consent (σ : PyStr → Option PyStr → Option PyStr) (p : Provider) (req : Request) (tr : List Ev) (out : ORes Consent)
    (h : Exec (p.consent req) tr out) : Exec (p.consent req) (tr.map (otherEv σ)) (out.map (otherConsent σ)) :=
  moves_consent p.cfg req _ _ h

/-- C102, token endpoint: if a presented secret is right in both worlds or wrong in both, the answer is the same. -/
theorem C102_token (env : OEnv) (table : Hooks) (σ : PyStr → Option PyStr → Option PyStr) (hb : SecretBlind σ table)
    (p : Provider) (req : Request) (hg : SameGuess σ req) (tr : List Ev) (out : ORes Response)
    (h : Exec (p.token env table req) tr out) : Exec (p.token env table req) (tr.map (otherEv σ)) out :=
  moves_exec (moves_token (objects_blind hb env p) env hg) h

/-- C102, revocation endpoint. -/
theorem C102_revoke (env : OEnv) (σ : PyStr → Option PyStr → Option PyStr) (p : Provider) (req : Request) (hg : SameGuess σ req)
    (tr : List Ev) (out : ORes (Option Response)) (h : Exec (p.revoke env req) tr out) :
    Exec (p.revoke env req) (tr.map (otherEv σ)) out :=
  moves_exec (moves_revokeEndpoint env hg) h

/-- C102, hooks: the hook of the library fulfils the condition, however often it was added. -/
theorem C102_hooks (env : OEnv) (σ : PyStr → Option PyStr → Option PyStr) (calls : List (Provider × Option GrantClass)) :
    SecretBlind σ (calls.foldl (fun t c => addHook t c.1 c.2 (oidcHook env)) Hooks.empty) := by
  suffices h : ∀ t, SecretBlind σ t → SecretBlind σ (calls.foldl (fun t c => addHook t c.1 c.2 (oidcHook env)) t) from h _ empty_blind
  induction calls with
  | nil => exact fun t h => h
  | cons c l ih => exact fun t h => ih _ (addHook_blind h env c.1 c.2)

/-- All secrets are replaced, except the one that was presented. -/
def redacted (s : PyStr) (_ : PyStr) : Option PyStr → Option PyStr
  | none => none
  | some t => if t = s then some t else some (s ++ py! "x")

/-- The condition of C102 is fulfilled if every wrong secret is replaced by another wrong one. -/
theorem redacted_same {req : Request} {s : PyStr} (h : ∀ m id s', Presents req m id s' → s' = some s ∨ s' = none) :
    SameGuess (redacted s) req := by
  intro m id s' hp cid t
  rcases h m id s' hp with rfl | rfl
  · cases t with
    | none => exact ⟨nofun, nofun⟩
    | some t =>
      show (if t = s then some t else some (s ++ py! "x")) = some s ↔ some t = some s
      split
      · exact Iff.rfl
      · rename_i hne
        constructor
        · intro he
          have := congrArg List.length (Option.some.inj he)
          rw [List.length_append] at this
          exact absurd this (by simp)
        · intro he
          exact absurd (Option.some.inj he) hne
  · cases t with
    | none => exact ⟨fun _ => rfl, fun _ => rfl⟩
    | some t =>
      show (if t = s then some t else some (s ++ py! "x")) = none ↔ some t = none
      split <;> exact ⟨nofun, nofun⟩

/-- A request with a wrong secret, for which the answer does not depend on the right one. -/
example : SameGuess (redacted (py! "xx")) (toyWrong (by! "grant_type=client_credentials")) ∧
    (redacted (py! "xx") (py! "c1") (some (py! "s3")) = some (py! "xxx")) := by
  refine ⟨redacted_same ?_, by decide⟩
  intro m id s hp
  cases hp with
  | basic id s h1 h2 h3 =>
    have := credentials_iff.mpr h1
    rw [show getBasicAuthorization (toyWrong (by! "grant_type=client_credentials")).headers = .ok (some (py! "c1", py! "xx")) by
      decide +kernel] at this
    cases this
    exact .inl rfl
  | post id s h1 =>
    rw [show Dict.get (toyWrong (by! "grant_type=client_credentials")).form (py! "client_id") = none by decide +kernel] at h1
    cases h1
  | none_ id h1 => exact .inr rfl

/-! ## C103 -/

/-- C103: take any history of the example application, in any interleaving and with any failures, and replace in the database the
secrets of the clients by others and the passwords of the users by others. If each secret and each password that a request presents
is right in both worlds or wrong in both, the same history is possible in the other world, and every request has the same
outcome. -/
theorem C103 (env : OEnv) (emailOk : PyStr → Bool) (σ : PyStr → Option PyStr → Option PyStr) (π : PyStr → PyStr → PyStr)
    (reqs : Nat → WebRequest) (hg : ∀ i, SameGuesses σ π (reqs i)) (w w' : WStore) (h : List WStep)
    (hist : WHistory env (exHooks env) emailOk reqs h) (hrun : WRun env w h w') :
    ∃ h', WHistory env (exHooks env) emailOk reqs h' ∧ WRun env (otherStore σ π w) h' (otherStore σ π w') ∧
      h'.map Prod.fst = h.map Prod.fst ∧
      ∀ i out, WExec (app env (exHooks env) emailOk (reqs i)) (ofWeb i h) out →
        WExec (app env (exHooks env) emailOk (reqs i)) (ofWeb i h') out := by
  have hb : SecretBlind σ (exHooks env) := addHook_blind empty_blind env exProvider _
  refine ⟨h.map (fun s => (s.1, otherWEv σ π s.2)), ?_, wrun_other hrun, ?_, ?_⟩
  · intro i
    rw [ofWeb_other]
    exact wmoves_partial (wmoves_app hb env emailOk (hg i)) (hist i)
  · rw [List.map_map]
    rfl
  · intro i out hx
    rw [ofWeb_other]
    exact wmoves_app hb env emailOk (hg i) _ _ hx

/-- All passwords are replaced, except the one that was presented. -/
def otherPassword (p : PyStr) (_ : PyStr) (q : PyStr) : PyStr := if q = p then q else p ++ py! "x"

theorem otherPassword_same {p id q : PyStr} : otherPassword p id q = p ↔ q = p := by
  unfold otherPassword
  split
  · exact Iff.rfl
  · rename_i hne
    constructor
    · intro he
      have := congrArg List.length he
      rw [List.length_append] at this
      exact absurd this (by simp)
    · exact fun he => absurd he hne

/-- A login with a wrong password: the condition of C103 allows to replace the right one. -/
example : SameGuesses (redacted []) (otherPassword (py! "battery staple")) (webLogin [] (py! "battery staple")) ∧
    otherPassword (py! "battery staple") (py! "u1") (py! "correct horse") = py! "battery staplex" := by
  refine ⟨⟨?_, fun id p => otherPassword_same⟩, by decide⟩
  intro user r hr
  refine redacted_same ?_
  intro m id s hp
  have hr : r = { method := py! "POST", query := [], headers := [], body := some [], user } :=
    (Except.ok.inj hr).symm
  subst hr
  cases hp with
  | basic id s h1 h2 h3 => exact absurd (credentials_iff.mpr h1) nofun
  | post id s h1 =>
    have h0 : Dict.get (Dict.ofPairs (parseQsl (toStringB []))) (py! "client_id") = none := by decide +kernel
    exact absurd (h0.symm.trans h1) nofun
  | none_ id h1 => exact .inr rfl

/-! ## C104 -/

/-- C104, login: every login that fails shows the same page, whatever the reason is. -/
theorem C104_login (env : OEnv) (table : Hooks) (emailOk : PyStr → Bool) (req : WebRequest) (tr : List WEv) (sv : Served)
    (hr : req.route = .login) (hm : req.method = py! "POST") (hgood : GoodForm emailOk req.form)
    (hx : WExec (app env table emailOk req) tr (.ok sv)) (hn : ∀ sid uid x, (⟨.session sid uid, .ok (some x)⟩ : WEv) ∉ tr)
    (hc : sv.cookie = none) : sv = ⟨.page .invalidCredentials, none⟩ := by
  obtain ⟨tr', hv, -⟩ := anonymous_exec hx hn
  unfold view at hv
  rw [hr] at hv
  dsimp only at hv
  rw [if_neg (by unfold isGet; rw [hm]; decide), if_pos (by unfold isPost; rw [hm]; decide)] at hv
  unfold loginPost at hv
  dsimp only at hv
  rw [if_neg (by rw [form_valid_iff.mpr hgood]; decide)] at hv
  have fin : ∀ {uid sid : PyStr} {t : List WEv}, WExec (loggedIn req uid sid) t (.ok sv) → False := by
    intro uid sid t h
    unfold loggedIn at h
    obtain ⟨-, h⟩ := wexec_done h
    cases hre : redirectTo (afterLogin req) with
    | error e => rw [hre] at h; cases h
    | ok reply =>
      rw [hre] at h
      cases h
      cases hc
  obtain ⟨t1, t2, found, -, -, hk⟩ := wexec_bind hv
  cases found with
  | error e => cases (wexec_done hk).2
  | ok found =>
    cases found with
    | none => exact Except.ok.inj (wexec_done hk).2
    | some x =>
      obtain ⟨uid, pw⟩ := x
      dsimp only at hk
      split at hk
      · exact Except.ok.inj (wexec_done hk).2
      · exfalso
        obtain ⟨t1, t2, session, -, -, hk⟩ := wexec_bind hk
        cases session with
        | error e => cases (wexec_done hk).2
        | ok session =>
          cases session with
          | some sid => exact fin hk
          | none =>
            obtain ⟨t1, t2, c, -, -, hk⟩ := wexec_bind hk
            cases c with
            | error e => cases (wexec_done hk).2
            | ok c =>
              obtain ⟨t1, t2, sid, -, -, hk⟩ := wexec_bind hk
              cases sid with
              | error e => cases (wexec_done hk).2
              | ok sid =>
                obtain ⟨t1, t2, u, -, -, hk⟩ := wexec_bind hk
                cases u with
                | error e => cases (wexec_done hk).2
                | ok u => exact fin hk

/-- A login with an unknown address, and one with a wrong password. -/
example : webServed ((webSim (fun _ => { webLogin [] (py! "correct horse") with
        form := ⟨py! "bob@example.org", py! "correct horse", true⟩ }) (exTurn 0 4 2)).2.2 0) =
      some ⟨.page .invalidCredentials, none⟩ ∧
    webServed ((webSim (fun _ => webLogin [] (py! "battery staple")) (exTurn 0 4 2)).2.2 0) =
      some ⟨.page .invalidCredentials, none⟩ := by decide +kernel

/-- The headers that a method puts on its errors. -/
def challengeOf : AuthMethod → Dict PyStr PyStr
  | .basic => [(py! "WWW-Authenticate", py! "Basic")]
  | _ => []

theorem wpp_checkClient_refused {m : AuthMethod} {id : PyStr} {s : Option PyStr} {found : Option Client}
    {Q : List Ev → Option Client → Prop} {E : List Ev → OExc → Prop} (hu : Refused m found s)
    (hE : ∀ h d, E h (.oauth (.mk' .invalidClient d none (challengeOf m)))) :
    WpP (fun h ev => h = [] → ev = ⟨.findClient id, .ok found⟩) (fun _ _ => True) Q E [] (checkClient m (challengeOf m) id s) := by
  unfold checkClient
  rw [wpp_bind, wpp_call]
  refine ⟨trivial, ?_, ?_⟩
  · intro r hr
    cases hr rfl
    cases found with
    | none => exact wpp_raise.mpr (hE _ _)
    | some c =>
      dsimp only
      rw [wpp_ite, wpp_ite]
      refine ⟨fun _ => wpp_raise.mpr (hE _ _), fun h1 => ⟨fun _ => wpp_raise.mpr (hE _ _), fun h2 => ?_⟩⟩
      have h2 : c.authMethod = methodName m := by
        have := Decidable.not_not.mp h2
        rw [this]
        cases m <;> rfl
      rcases hu c rfl with h | h
      · exact absurd (Decidable.not_not.mp h1) h
      · exact absurd h2 h
  · intro e he
    cases he rfl

theorem wpp_authenticate_refused {req : Request} {methods : Option (List PyStr)} {m : AuthMethod} {id : PyStr} {s : Option PyStr}
    {found : Option Client} {Q : List Ev → Client → Prop} {E : List Ev → OExc → Prop} (ht : Tried req m id s)
    (hm : m ≠ .none_ → methodEnabled methods m = true) (hu : Refused m found s)
    (hE : ∀ h d, E h (.oauth (.mk' .invalidClient d none (challengeOf m)))) (hX : ∀ h e, E h (.py e)) :
    WpP (fun h ev => h = [] → ev = ⟨.findClient id, .ok found⟩) (fun _ _ => True) Q E [] (authenticate req methods) := by
  obtain ⟨hp, hno⟩ := ht
  have skipBasic : m ≠ .basic → ∀ {f : Option Client → P Client},
      WpP (fun h ev => h = [] → ev = ⟨.findClient id, .ok found⟩) (fun _ _ => True) Q E [] (f none) →
      WpP (fun h ev => h = [] → ev = ⟨.findClient id, .ok found⟩) (fun _ _ => True) Q E [] (P.bind (AuthMethod.run req .basic) f) := by
    intro hne f hf
    rw [wpp_bind]
    change WpP _ _ _ _ _ (authBasic req)
    unfold authBasic
    rw [wpp_bind, wpp_lift, post_liftRes]
    refine ⟨?_, fun e _ => hX _ _⟩
    intro cred hc
    cases cred with
    | none => exact hf
    | some x =>
      obtain ⟨i, t⟩ := x
      dsimp only
      rw [wpp_ite]
      refine ⟨fun _ => hf, fun hne' => ?_⟩
      rw [not_or] at hne'
      exact absurd (.basic i t (credentials_iff.mp hc) hne'.1 hne'.2) (hno hne i _)
  unfold authenticate AuthMethod.all
  cases m with
  | basic =>
    unfold authLoop
    rw [if_pos (hm nofun), wpp_bind]
    change WpP _ _ _ _ _ (authBasic req)
    rw [presents_basic_run hp]
    exact wpp_checkClient_refused hu hE
  | post =>
    have post : WpP (fun h ev => h = [] → ev = ⟨.findClient id, .ok found⟩) (fun _ _ => True) Q E []
        (authLoop req methods [.post, .none_]) := by
      unfold authLoop
      rw [if_pos (hm nofun), wpp_bind]
      change WpP _ _ _ _ _ (authPost req)
      rw [presents_post_run hp]
      exact wpp_checkClient_refused hu hE
    unfold authLoop
    rw [wpp_ite]
    exact ⟨fun _ => skipBasic nofun post, fun _ => post⟩
  | none_ =>
    cases hp with
    | none_ id h1 h2 h3 =>
      have last : WpP (fun h ev => h = [] → ev = ⟨.findClient id, .ok found⟩) (fun _ _ => True) Q E []
          (authLoop req methods [.none_]) := by
        unfold authLoop
        rw [wpp_ite]
        refine ⟨fun _ => ?_, fun _ => wpp_raise.mpr (hE _ _)⟩
        rw [wpp_bind]
        change WpP _ _ _ _ _ (authNone req)
        unfold authNone
        rw [h1, h2]
        dsimp only
        rw [if_neg h3]
        exact wpp_checkClient_refused hu hE
      have post : WpP (fun h ev => h = [] → ev = ⟨.findClient id, .ok found⟩) (fun _ _ => True) Q E []
          (authLoop req methods [.post, .none_]) := by
        unfold authLoop
        rw [wpp_ite]
        refine ⟨fun _ => ?_, fun _ => last⟩
        have hpost : AuthMethod.run req .post = P.ret none := by
          show authPost req = P.ret none
          unfold authPost
          rw [h1, h2]
        rw [hpost]
        exact last
      unfold authLoop
      rw [wpp_ite]
      exact ⟨fun _ => skipBasic nofun post, fun _ => post⟩

theorem alike_of {fe : FloatEnv} (hl : FloatLaws fe) {st : Nat} {hd : Dict PyStr PyStr} {d d' : Option PyStr} {hd0 : Dict PyStr PyStr}
    {r r' : Response}
    (h : jsonResponse fe st hd (.dict (ndictVal (OErr.mk' .invalidClient d none hd0).dump)) = .ok r)
    (h' : jsonResponse fe st hd (.dict (ndictVal (OErr.mk' .invalidClient d' none hd0).dump)) = .ok r') : AlikeErrors fe r r' := by
  have hs := jsonResponse_status h
  have hs' := jsonResponse_status h'
  refine ⟨hs.1.trans hs'.1.symm, hs.2.trans hs'.2.symm, _, _, (C62_error_body _ hl _ _ _ _ h).2, (C62_error_body _ hl _ _ _ _ h').2, ?_⟩
  intro k hk
  by_cases he : py! "error" = k
  · subst he
    cases d <;> cases d' <;> rfl
  · have hk : ¬ py! "error_description" = k := fun h => hk h.symm
    cases d <;> cases d' <;> simp [OErr.mk', Dict.get, he, hk]

/-- C104, revocation endpoint, what holds: if the client that a request names does not exist, or has another secret, or is registered
for another method, the responses are the same except for `error_description`. What is missing is this description
(`C104_refuted`). -/
theorem C104_revoke_partial (env : OEnv) (hl : FloatLaws env.cr.fe) (p : Provider) (req : Request) (m : AuthMethod) (id : PyStr)
    (s : Option PyStr) (ht : Tried req m id s) (found found' : Option Client) (hu : Refused m found s) (hu' : Refused m found' s)
    (rest rest' : List Ev) (r r' : Response)
    (h : Exec (p.revoke env req) (⟨.findClient id, .ok found⟩ :: rest) (.ok (some r)))
    (h' : Exec (p.revoke env req) (⟨.findClient id, .ok found'⟩ :: rest') (.ok (some r'))) : AlikeErrors env.cr.fe r r' := by
  have key : ∀ {found rest r}, Refused m found s → Exec (p.revoke env req) (⟨.findClient id, .ok found⟩ :: rest) (.ok (some r)) →
      ∃ d, jsonResponse env.cr.fe 401 (challengeOf m)
        (.dict (ndictVal (OErr.mk' .invalidClient d none (challengeOf m)).dump)) = .ok r := by
    intro found rest r hu h
    have hw : WpP (fun h ev => h = [] → ev = ⟨.findClient id, .ok found⟩) (fun _ _ => True)
        (fun _ a => ∃ d r, a = some r ∧ jsonResponse env.cr.fe 401 (challengeOf m)
          (.dict (ndictVal (OErr.mk' .invalidClient d none (challengeOf m)).dump)) = .ok r)
        (fun _ _ => True) [] (p.revoke env req) := by
      unfold Provider.revoke revokeEndpoint
      rw [wpp_catch]
      unfold revokeBody
      rw [wpp_bind]
      refine wpp_authenticate_refused ht (fun _ => rfl) hu ?_ (fun _ _ => trivial)
      intro h d
      dsimp only [caught]
      rw [wpp_bind, wpp_lift, post_liftRes]
      exact ⟨fun r hr => ⟨d, r, rfl, hr⟩, fun _ _ => trivial⟩
    obtain ⟨d, r, he, hj⟩ := wpp_exec_ok h hw answers_first
    cases he
    exact ⟨d, hj⟩
  obtain ⟨d, hj⟩ := key hu h
  obtain ⟨d', hj'⟩ := key hu' h'
  exact alike_of hl hj hj'

/-- C104, token endpoint, what holds: the same. -/
theorem C104_token_partial (env : OEnv) (hl : FloatLaws env.cr.fe) (table : Hooks) (p : Provider) (req : Request) (m : AuthMethod)
    (id : PyStr) (s : Option PyStr) (ht : Tried req m id s) (found found' : Option Client) (hu : Refused m found s)
    (hu' : Refused m found' s) (rest rest' : List Ev) (r r' : Response)
    (h : Exec (p.token env table req) (⟨.findClient id, .ok found⟩ :: rest) (.ok r))
    (h' : Exec (p.token env table req) (⟨.findClient id, .ok found'⟩ :: rest') (.ok r')) : AlikeErrors env.cr.fe r r' := by
  have key : ∀ {found rest r}, Refused m found s → Exec (p.token env table req) (⟨.findClient id, .ok found⟩ :: rest) (.ok r) →
      ∃ d, jsonResponse env.cr.fe 400 (Dict.update (challengeOf m) noStoreHeaders)
        (.dict (ndictVal (OErr.mk' .invalidClient d none (challengeOf m)).dump)) = .ok r := by
    intro found rest r hu h
    have hw : WpP (fun h ev => h = [] → ev = ⟨.findClient id, .ok found⟩) (fun _ _ => True)
        (fun h r => h ≠ [] → ∃ d, jsonResponse env.cr.fe 400 (Dict.update (challengeOf m) noStoreHeaders)
          (.dict (ndictVal (OErr.mk' .invalidClient d none (challengeOf m)).dump)) = .ok r)
        (fun _ _ => True) [] (p.token env table req) := by
      unfold Provider.token tokenEndpoint
      rw [wpp_catch]
      have early : ∀ e, caught (fun _ _ => True) (fun h e => WpP (fun h ev => h = [] → ev = ⟨.findClient id, .ok found⟩)
          (fun _ _ => True) (fun h r => h ≠ [] → ∃ d, jsonResponse env.cr.fe 400 (Dict.update (challengeOf m) noStoreHeaders)
            (.dict (ndictVal (OErr.mk' .invalidClient d none (challengeOf m)).dump)) = .ok r) (fun _ _ => True) h
          (P.lift (liftRes (jsonResponse env.cr.fe 400 (Dict.update e.headers noStoreHeaders) (.dict (ndictVal e.dump))))))
          [] e := by
        intro e
        cases e with
        | oauth x =>
          dsimp only [caught]
          rw [wpp_lift, post_liftRes]
          exact ⟨fun _ _ h => absurd rfl h, fun _ _ => trivial⟩
        | py x => trivial
      unfold tokenBody
      dsimp only
      rw [wpp_ite]
      refine ⟨fun _ => wpp_raise.mpr (early _), fun _ => ?_⟩
      rw [wpp_bind, wpp_lift, post_iff]
      refine ⟨?_, fun e _ => early e⟩
      intro grant hgrant
      obtain ⟨g, hg, hgt, rfl⟩ := validateGrantType_ok hgrant
      rw [wpp_bind]
      refine wpp_authenticate_refused ht (by intro h; cases m <;> cases g <;> first | rfl | exact absurd rfl h) hu ?_
        (fun _ _ => trivial)
      intro h d
      dsimp only [caught]
      rw [wpp_lift, post_liftRes]
      exact ⟨fun r hr _ => ⟨d, hr⟩, fun _ _ => trivial⟩
    exact wpp_exec_ok h hw answers_first (by simp)
  obtain ⟨d, hj⟩ := key hu h
  obtain ⟨d', hj'⟩ := key hu' h'
  exact alike_of hl hj hj'

/-- A database without clients. -/
def toyNobody : List Ev → (o : Op) → ORes o.Ans
  | _, .findClient _ => .ok none
  | h, o => toyUsual h o

/-- The client of the toy database, registered for another method. -/
def toyOtherMethod : List Ev → (o : Op) → ORes o.Ans :=
  toyAdapter { toyClient with authMethod := py! "client_secret_post" } (toyCode [py! "openid", py! "read"])
    (toyRefresh [py! "read", py! "write"])

theorem toyWrong_tried (body : Bytes) : Tried (toyWrong body) .basic (py! "c1") (some (py! "xx")) :=
  ⟨toyWrong_presents body, fun h => absurd rfl h⟩

/-- The same request with a wrong secret, if there is no such client, if its secret is another one, and with the right secret if it is
registered for another method. -/
example : isResponse 400 (by! "{\"error\": \"invalid_client\", \"error_description\": \"Client not found.\"}")
      (toyRun toyNobody (toyWrong (by! "grant_type=client_credentials"))).2 = true ∧
    isResponse 400 (by! "{\"error\": \"invalid_client\", \"error_description\": \"Mismatching Client Secret.\"}")
      (toyRun toyUsual (toyWrong (by! "grant_type=client_credentials"))).2 = true ∧
    isResponse 400 (by! "{\"error\": \"invalid_client\", \"error_description\": \"This Client is not allowed to use the method \\\"client_secret_basic\\\".\"}")
      (toyRun toyOtherMethod (toyPost (by! "grant_type=client_credentials"))).2 = true := by decide +kernel

/-- C104 is false: the answer to a wrong secret tells whether the client exists. -/
theorem C104_refuted : ¬ ∀ (env : OEnv) (_ : FloatLaws env.cr.fe) (p : Provider) (req : Request) (m : AuthMethod) (id : PyStr)
    (s : Option PyStr) (_ : Tried req m id s) (found found' : Option Client) (_ : Refused m found s) (_ : Refused m found' s)
    (rest rest' : List Ev) (r r' : Response), Exec (p.token env Hooks.empty req) (⟨.findClient id, .ok found⟩ :: rest) (.ok r) →
      Exec (p.token env Hooks.empty req) (⟨.findClient id, .ok found'⟩ :: rest') (.ok r') → r = r' := by
  intro H
  have hx := toyRun_exec toyUsual (toyWrong (by! "grant_type=client_credentials"))
  have hy := toyRun_exec toyNobody (toyWrong (by! "grant_type=client_credentials"))
  have hk : (match toyRun toyUsual (toyWrong (by! "grant_type=client_credentials")),
        toyRun toyNobody (toyWrong (by! "grant_type=client_credentials")) with
      | ([⟨.findClient id, .ok (some c)⟩], .ok r), ([⟨.findClient id', .ok none⟩], .ok r') =>
        decide (id = py! "c1" ∧ id' = py! "c1" ∧ c.secret = some (py! "s3") ∧ r.body ≠ r'.body)
      | _, _ => false) = true := by decide +kernel
  split at hk
  · rename_i id c r id' r' heq heq'
    rw [heq] at hx
    rw [heq'] at hy
    rw [decide_eq_true_eq] at hk
    obtain ⟨rfl, rfl, hc, hr⟩ := hk
    have := H toyEnv toyFloat_laws toyProvider _ _ _ _ (toyWrong_tried _) _ _
      (by rintro c' ⟨⟩; exact Or.inl (by rw [hc]; decide)) (by rintro c' ⟨⟩) _ _ _ _ hx hy
    exact hr (congrArg Response.body this)
  · cases hk

end Psion.Props
