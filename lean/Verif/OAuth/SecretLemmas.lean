import Verif.Spec.Secrets
import Verif.OAuth.AnswerLemmas

/-!
# Secrecy of client secrets: lemmas

`Moves σ g p q`: every execution of `p` is one of `q` in the world with the other secrets, with the result translated by `g`.
-/

namespace Psion

open Spec

variable {α β γ δ : Type} {σ : PyStr → Option PyStr → Option PyStr}

/-- Every execution of `p` is one of `q` in the world with the other secrets. -/
def Moves (σ : PyStr → Option PyStr → Option PyStr) (g : α → β) (p : P α) (q : P β) : Prop :=
  ∀ tr a, Exec p tr a → Exec q (tr.map (otherEv σ)) (a.map g)

theorem exec_bind_intro {f : α → Prog β} {p : Prog α} {t1 : List Ev} {a : α} (h : Exec p t1 a) : ∀ {t2 : List Ev} {b : β},
    Exec (f a) t2 b → Exec (Prog.bind p f) (t1 ++ t2) b := by
  induction h with
  | done a => exact fun h => h
  | op o k r tr a _ ih => exact fun h => .op o _ r _ _ (ih h)

theorem moves_done {g : α → β} (r : ORes α) : Moves σ g (.done r) (.done (r.map g)) := by
  intro tr a h
  obtain ⟨rfl, rfl⟩ := exec_done h
  exact .done _

theorem moves_raise (g : α → β) (e : OExc) : Moves σ g (P.raise e) (P.raise e) := moves_done (.error e)

theorem moves_ret (g : α → β) (a : α) : Moves σ g (P.ret a) (P.ret (g a)) := moves_done (.ok a)

theorem map_id_res (r : ORes α) : r.map id = r := by cases r <;> rfl

theorem moves_lift (r : ORes α) : Moves σ id (P.lift r) (P.lift r) := by
  have := moves_done (σ := σ) (g := id) r
  rwa [map_id_res] at this

theorem moves_prog {γ δ : Type} {g : α → β} {g' : γ → δ} {p : P α} {q : P β} {k : ORes α → P γ} {k' : ORes β → P δ}
    (h1 : Moves σ g p q) (h2 : ∀ a, Moves σ g' (k a) (k' (a.map g))) : Moves σ g' (Prog.bind p k) (Prog.bind q k') := by
  intro tr b h
  obtain ⟨t1, t2, a, rfl, hp, hk⟩ := exec_bind h
  rw [List.map_append]
  exact exec_bind_intro (h1 _ _ hp) (h2 _ _ _ hk)

theorem moves_bind {g : α → β} {g' : γ → δ} {p : P α} {q : P β} {k : α → P γ} {k' : β → P δ}
    (h1 : Moves σ g p q) (h2 : ∀ a, Moves σ g' (k a) (k' (g a))) : Moves σ g' (P.bind p k) (P.bind q k') := by
  refine moves_prog h1 ?_
  intro a
  cases a with
  | ok a => exact h2 a
  | error e => exact moves_done (.error e)

theorem moves_catch {g : α → β} {p : P α} {q : P β} {k : OErr → P α} {k' : OErr → P β}
    (h1 : Moves σ g p q) (h2 : ∀ e, Moves σ g (k e) (k' e)) : Moves σ g (P.catchOAuth p k) (P.catchOAuth q k') := by
  refine moves_prog h1 ?_
  intro a
  cases a with
  | ok a => exact moves_done (.ok a)
  | error e =>
    cases e with
    | oauth e => exact h2 e
    | py e => exact moves_done (.error (.py e))

theorem moves_finally {g : α → β} {p : P α} {q : P β} {f f' : P Unit} (h1 : Moves σ g p q) (h2 : Moves σ id f f') :
    Moves σ g (P.finally_ p f) (P.finally_ q f') := by
  refine moves_prog h1 ?_
  intro r
  refine moves_prog h2 ?_
  intro s
  cases s with
  | ok s => exact moves_done r
  | error e => exact moves_done (.error e)

theorem moves_ite {g : α → β} {c : Prop} [Decidable c] {p p' : P α} {q q' : P β} (h1 : c → Moves σ g p q) (h2 : ¬ c → Moves σ g p' q') :
    Moves σ g (if c then p else p') (if c then q else q') := by
  by_cases h : c
  · rw [if_pos h, if_pos h]; exact h1 h
  · rw [if_neg h, if_neg h]; exact h2 h

theorem moves_call {o o' : Op} {g : o.Ans → o'.Ans} (h : ∀ r, otherEv σ ⟨o, r⟩ = ⟨o', r.map g⟩) :
    Moves σ g (P.call o) (P.call o') := by
  intro tr a hx
  unfold P.call at hx
  cases hx with
  | op _ _ r t _ hx =>
    obtain ⟨rfl, rfl⟩ := exec_done hx
    rw [List.map_cons, h]
    exact .op _ _ _ _ _ (.done _)

theorem moves_same {o : Op} (h : ∀ r, otherEv σ ⟨o, r⟩ = ⟨o, r⟩) : Moves σ id (P.call o) (P.call o) :=
  moves_call (o := o) (o' := o) (g := id) (fun r => by rw [h, map_id_res])

/-- A computation that does not wait, and what follows. -/
theorem moves_lifted {g : β → γ} {r : ORes α} {k : α → P β} {k' : α → P γ} (h : ∀ a, r = .ok a → Moves σ g (k a) (k' a)) :
    Moves σ g (P.bind (P.lift r) k) (P.bind (P.lift r) k') := by
  cases r with
  | ok a => exact h a rfl
  | error e => exact moves_done (.error e)

theorem moves_findClient (id : PyStr) :
    Moves σ (Option.map (otherSecret σ)) (P.call (.findClient id)) (P.call (.findClient id)) :=
  moves_call (o := .findClient id) (o' := .findClient id) (g := Option.map (otherSecret σ)) (fun _ => rfl)

theorem moves_saveCode (code : PyStr) (d : Dict PyStr Val) (c : Client) (u : User) :
    Moves (β := Unit) σ (@id Unit) (P.call (.saveCode code d c u)) (P.call (.saveCode code d (otherSecret σ c) u)) :=
  moves_call (o := .saveCode code d c u) (o' := .saveCode code d (otherSecret σ c) u) (g := @id Unit)
    (fun r => by rw [map_id_res]; rfl)

theorem moves_createAccess (c : Client) (o : Owner) (l : List PyStr) :
    Moves (β := PyStr) σ (@id PyStr) (P.call (.createAccess c o l)) (P.call (.createAccess (otherSecret σ c) (otherOwner σ o) l)) :=
  moves_call (o := .createAccess c o l) (o' := .createAccess (otherSecret σ c) (otherOwner σ o) l) (g := @id PyStr)
    (fun r => by rw [map_id_res]; rfl)

theorem moves_createRefresh (c : Client) (u : Option User) (l : List PyStr) :
    Moves (β := PyStr) σ (@id PyStr) (P.call (.createRefresh c u l)) (P.call (.createRefresh (otherSecret σ c) u l)) :=
  moves_call (o := .createRefresh c u l) (o' := .createRefresh (otherSecret σ c) u l) (g := @id PyStr)
    (fun r => by rw [map_id_res]; rfl)

theorem moves_revoke (c : Client) (t : PyStr) (h : Option PyStr) :
    Moves (β := Unit) σ (@id Unit) (P.call (.revoke c t h)) (P.call (.revoke (otherSecret σ c) t h)) :=
  moves_call (o := .revoke c t h) (o' := .revoke (otherSecret σ c) t h) (g := @id Unit)
    (fun r => by rw [map_id_res]; rfl)

/-! ## Client authentication -/

theorem moves_checkClient {m : AuthMethod} {hd : Dict PyStr PyStr} {id : PyStr} {sec : Option PyStr}
    (hs : ∀ cid t, σ cid t = sec ↔ t = sec) :
    Moves σ (Option.map (otherSecret σ)) (checkClient m hd id sec) (checkClient m hd id sec) := by
  unfold checkClient
  refine moves_bind (moves_findClient id) ?_
  intro found
  cases found with
  | none => exact moves_raise _ _
  | some c =>
    dsimp only [Option.map]
    have h1 : ((otherSecret σ c).secret ≠ sec) ↔ c.secret ≠ sec := not_congr (hs _ _)
    by_cases h : c.secret ≠ sec
    · rw [if_pos h, if_pos (h1.mpr h)]
      exact moves_raise _ _
    · rw [if_neg h, if_neg (fun h' => h (h1.mp h'))]
      refine moves_ite (c := c.authMethod ≠ m.name) (fun _ => moves_raise _ _) (fun _ => moves_ret _ _)

theorem moves_run {req : Request} (hg : SameGuess σ req) (m : AuthMethod) :
    Moves σ (Option.map (otherSecret σ)) (m.run req) (m.run req) := by
  cases m with
  | basic =>
    show Moves σ _ (authBasic req) (authBasic req)
    unfold authBasic
    refine moves_lifted ?_
    intro cred hc
    cases hb : getBasicAuthorization req.headers with
    | error e => rw [hb] at hc; cases hc
    | ok x =>
      rw [hb] at hc
      cases hc
      cases cred with
      | none => exact moves_ret _ _
      | some x =>
        obtain ⟨i, s⟩ := x
        refine moves_ite (fun _ => moves_ret _ _) (fun hne => ?_)
        rw [not_or] at hne
        exact moves_checkClient (hg _ _ _ (.basic i s (credentials_iff.mp hb) hne.1 hne.2))
  | post =>
    show Moves σ _ (authPost req) (authPost req)
    unfold authPost
    split
    · rename_i id sec h1 h2
      refine moves_ite (fun _ => moves_ret _ _) (fun hne => ?_)
      rw [not_or] at hne
      exact moves_checkClient (hg _ _ _ (.post id sec h1 h2 hne.1 hne.2))
    · exact moves_ret _ _
  | none_ =>
    show Moves σ _ (authNone req) (authNone req)
    unfold authNone
    split
    · rename_i id h1 h2
      refine moves_ite (fun _ => moves_ret _ _) (fun hne => ?_)
      exact moves_checkClient (hg _ _ _ (.none_ id h1 h2 hne))
    · exact moves_ret _ _

theorem moves_authLoop {req : Request} (hg : SameGuess σ req) (methods : Option (List PyStr)) (l : List AuthMethod) :
    Moves σ (otherSecret σ) (authLoop req methods l) (authLoop req methods l) := by
  induction l with
  | nil => exact moves_raise _ _
  | cons m l ih =>
    unfold authLoop
    refine moves_ite (fun _ => ?_) (fun _ => ih)
    refine moves_bind (moves_run hg m) ?_
    intro found
    cases found with
    | none => exact ih
    | some c => exact moves_ret _ _

/-! ## Grants -/

theorem moves_runHooks {ι : Type} {f f' : ι → Dict PyStr Val → P (Option (Dict PyStr Val))} (l : List ι)
    (h : ∀ x ∈ l, ∀ acc, Moves σ id (f x acc) (f' x acc)) :
    ∀ acc, Moves σ id (runHooks acc (l.map f)) (runHooks acc (l.map f')) := by
  induction l with
  | nil => exact fun acc => moves_ret id acc
  | cons x l ih =>
    intro acc
    exact moves_bind (h x List.mem_cons_self acc) (fun r => ih (fun y hy => h y (List.mem_cons_of_mem _ hy)) _)

theorem moves_hook {p q : P α} (h : ∀ tr out, Exec p tr out → Exec q (tr.map (otherEv σ)) out) : Moves σ id p q := by
  intro tr a hx
  rw [map_id_res]
  exact h tr a hx

theorem moves_validateAuthorizationRequest {t : Hooks} (hb : SecretBlind σ t) (data : Dict PyStr PyStr) :
    Moves σ id (validateAuthorizationRequest t data) (validateAuthorizationRequest t data) := by
  unfold validateAuthorizationRequest
  refine moves_bind (moves_lift _) (fun r => ?_)
  exact moves_runHooks _ (fun h hh _ => moves_hook (hb.authorizationRequest h hh data)) _

theorem moves_codeAuthorize {t : Hooks} (hb : SecretBlind σ t) (env : OEnv) (cfg : Config) (data : Dict PyStr PyStr) (c : Client)
    (u : User) : Moves σ id (codeAuthorize env cfg t data c u) (codeAuthorize env cfg t data (otherSecret σ c) u) := by
  unfold codeAuthorize
  refine moves_bind (moves_validateAuthorizationRequest hb data) (fun data => ?_)
  refine moves_bind (moves_lift _) (fun scopes => ?_)
  refine moves_bind (moves_lift _) (fun _ => ?_)
  refine moves_bind (moves_same (fun _ => rfl)) (fun choices => ?_)
  refine moves_bind (moves_lift _) (fun code => ?_)
  refine moves_bind (moves_saveCode _ _ _ _) (fun _ => ?_)
  refine moves_bind (moves_runHooks _ (fun h hh _ => moves_hook (hb.authorizationResponse h hh _ _ _ _)) _) (fun response => ?_)
  exact moves_bind (moves_lift _) (fun uri => moves_lift _)

theorem moves_validateCodeTokenRequest {t : Hooks} (hb : SecretBlind σ t) (data : Dict PyStr PyStr) :
    Moves σ id (validateCodeTokenRequest t data) (validateCodeTokenRequest t data) := by
  unfold validateCodeTokenRequest
  refine moves_bind (moves_lift _) (fun r => ?_)
  exact moves_runHooks _ (fun h hh _ => moves_hook (hb.tokenRequest h hh data)) _

theorem moves_validateAuthorizationCode (env : OEnv) (data : Dict PyStr Val) (code : AuthCode) (c : Client) :
    Moves σ id (validateAuthorizationCode env data code c) (validateAuthorizationCode env data code (otherSecret σ c)) := by
  unfold validateAuthorizationCode
  refine moves_bind (moves_lift _) (fun uri => ?_)
  refine moves_ite (fun _ => moves_raise _ _) (fun _ => ?_)
  refine moves_ite (fun _ => moves_raise _ _) (fun _ => ?_)
  refine moves_ite (fun _ => moves_raise _ _) (fun _ => ?_)
  refine moves_ite (fun _ => moves_raise _ _) (fun _ => ?_)
  refine moves_bind (moves_lift _) (fun verifier => ?_)
  dsimp only [id]
  split
  · exact moves_raise _ _
  · exact moves_raise _ _
  · refine moves_ite (fun _ => moves_raise _ _) (fun _ => ?_)
    refine moves_bind (moves_same (fun _ => rfl)) (fun now => ?_)
    exact moves_ite (fun _ => moves_raise _ _) (fun _ => moves_ret _ _)

theorem moves_maybeRefresh (c : Client) (u : Option User) (l : List PyStr) :
    Moves σ id (maybeRefresh c u l) (maybeRefresh (otherSecret σ c) u l) := by
  unfold maybeRefresh
  refine moves_ite (c := py! "refresh_token" ∈ c.grantTypes) (fun _ => ?_) (fun _ => moves_ret _ _)
  exact moves_bind (moves_createRefresh _ _ _) (fun t => moves_ret _ _)

theorem moves_codeTokenBody {t : Hooks} (hb : SecretBlind σ t) (env : OEnv) (cfg : Config) (data : Dict PyStr Val) (c : Client) :
    Moves σ id (codeTokenBody env cfg t data c) (codeTokenBody env cfg t data (otherSecret σ c)) := by
  unfold codeTokenBody
  refine moves_bind (moves_lift _) (fun x => ?_)
  refine moves_bind (moves_same (fun _ => rfl)) (fun found => ?_)
  dsimp only [id]
  cases found with
  | none => exact moves_raise _ _
  | some code =>
    refine moves_bind (moves_validateAuthorizationCode _ _ _ _) (fun _ => ?_)
    refine moves_bind (moves_same (fun _ => rfl)) (fun found => ?_)
    dsimp only [id]
    cases found with
    | none => exact moves_raise _ _
    | some user =>
      refine moves_bind (moves_createAccess _ _ _) (fun access => ?_)
      refine moves_bind (moves_maybeRefresh _ _ _) (fun refresh => ?_)
      exact moves_runHooks _ (fun h hh acc => moves_hook (hb.tokenResponse h hh _ _ _ _)) _

theorem moves_deleteCode (r : ORes Val) : Moves σ id (deleteCode r) (deleteCode r) :=
  moves_bind (moves_lift _) (fun x => moves_same (o := .deleteCode x) (fun _ => rfl))

theorem moves_codeToken {t : Hooks} (hb : SecretBlind σ t) (env : OEnv) (cfg : Config) (data : Dict PyStr PyStr) (c : Client) :
    Moves σ id (codeToken env cfg t data c) (codeToken env cfg t data (otherSecret σ c)) := by
  unfold codeToken
  refine moves_prog (moves_validateCodeTokenRequest hb data) (fun r => ?_)
  rw [map_id_res]
  cases r with
  | error e => exact moves_finally (moves_raise _ _) (moves_deleteCode _)
  | ok valid => exact moves_finally (moves_codeTokenBody hb _ _ _ _) (moves_deleteCode _)

theorem moves_credentialsToken (env : OEnv) (cfg : Config) (data : Dict PyStr PyStr) (c : Client) :
    Moves σ id (credentialsToken env cfg data c) (credentialsToken env cfg data (otherSecret σ c)) := by
  unfold credentialsToken
  refine moves_bind (moves_lift _) (fun _ => ?_)
  refine moves_bind (moves_lift _) (fun scopes => ?_)
  exact moves_bind (moves_createAccess _ (.client c) _) (fun token => moves_ret _ _)

theorem moves_validateRefreshToken (token : RefreshTok) (c : Client) :
    Moves σ id (validateRefreshToken token c) (validateRefreshToken token (otherSecret σ c)) := by
  unfold validateRefreshToken
  refine moves_ite (c := token.clientId ≠ c.clientId) (fun _ => moves_raise _ _) (fun _ => ?_)
  refine moves_bind (moves_same (fun _ => rfl)) (fun now => ?_)
  exact moves_ite (fun _ => moves_raise _ _) (fun _ => moves_ret _ _)

theorem moves_refreshToken (env : OEnv) (cfg : Config) (data : Dict PyStr PyStr) (c : Client) :
    Moves σ id (refreshToken env cfg data c) (refreshToken env cfg data (otherSecret σ c)) := by
  unfold refreshToken
  refine moves_ite (fun _ => moves_raise _ _) (fun _ => ?_)
  refine moves_bind (moves_same (fun _ => rfl)) (fun found => ?_)
  dsimp only [id]
  cases found with
  | none => exact moves_raise _ _
  | some token =>
    refine moves_bind (moves_validateRefreshToken _ _) (fun _ => ?_)
    refine moves_bind (moves_lift _) (fun scopes => ?_)
    refine moves_bind (moves_lift _) (fun scopes => ?_)
    refine moves_bind (moves_same (fun _ => rfl)) (fun user => ?_)
    refine moves_bind (moves_createAccess _ (.user user) _) (fun access => ?_)
    exact moves_bind (moves_maybeRefresh _ _ _) (fun refresh => moves_ret _ _)

/-! ## Endpoints -/

/-- A grant that does not use the secret. -/
structure GrantBlind (σ : PyStr → Option PyStr → Option PyStr) (g : Grant) : Prop where
  authorize : ∀ d c u, Moves σ id (g.authorize d c u) (g.authorize d (otherSecret σ c) u)
  token : ∀ d c, Moves σ id (g.token d c) (g.token d (otherSecret σ c))

theorem grantOf_blind {t : Hooks} (hb : SecretBlind σ t) (env : OEnv) (cfg : Config) (g : GrantClass) :
    GrantBlind σ (grantOf env cfg t g) := by
  cases g with
  | authorizationCode => exact ⟨fun d c u => moves_codeAuthorize hb env cfg d c u, fun d c => moves_codeToken hb env cfg d c⟩
  | clientCredentials => exact ⟨fun d c u => moves_raise _ _, fun d c => moves_credentialsToken env cfg d c⟩
  | refreshToken => exact ⟨fun d c u => moves_raise _ _, fun d c => moves_refreshToken env cfg d c⟩

theorem moves_validateClient (id uri rt : PyStr) (state : Option PyStr) :
    Moves σ (otherSecret σ) (validateClient id uri rt state) (validateClient id uri rt state) := by
  unfold validateClient
  refine moves_bind (moves_findClient id) (fun found => ?_)
  cases found with
  | none => exact moves_raise _ _
  | some c =>
    refine moves_ite (c := uri ∉ c.redirectUris) (fun _ => moves_raise _ _) (fun _ => ?_)
    exact moves_ite (c := rt ∉ c.responseTypes) (fun _ => moves_raise _ _) (fun _ => moves_ret _ _)

theorem moves_authorize {grants : List Grant} (hg : ∀ g ∈ grants, GrantBlind σ g) (cfg : Config) (req : Request) :
    Moves σ id (authorizeEndpoint cfg grants req) (authorizeEndpoint cfg grants req) := by
  unfold authorizeEndpoint
  refine moves_catch ?_ (fun e => moves_lift _)
  unfold authorizeBody
  dsimp only
  refine moves_bind (moves_lift _) (fun _ => ?_)
  cases req.user with
  | none => exact moves_raise _ _
  | some user =>
    refine moves_bind (moves_lift _) (fun rt => ?_)
    refine moves_lifted (fun grant hgr => ?_)
    have hmem : grant ∈ grants := by
      unfold validateResponseType at hgr
      split at hgr
      · rename_i g hf
        cases hgr
        exact List.mem_of_find?_eq_some hf
      · cases hgr
    refine moves_bind (moves_lift _) (fun id => ?_)
    refine moves_bind (moves_lift _) (fun uri => ?_)
    refine moves_bind (moves_validateClient _ _ _ _) (fun c => ?_)
    exact moves_bind ((hg grant hmem).authorize _ _ _) (fun url => moves_lift _)

theorem moves_consent (cfg : Config) (req : Request) :
    Moves σ (otherConsent σ) (consentEndpoint cfg req) (consentEndpoint cfg req) := by
  unfold consentEndpoint
  refine moves_catch ?_ (fun e => moves_bind (moves_lift _) (fun r => moves_ret (otherConsent σ) (.redirect r)))
  unfold consentBody
  dsimp only
  refine moves_bind (moves_lift _) (fun _ => ?_)
  refine moves_bind (moves_lift _) (fun id => ?_)
  refine moves_bind (moves_lift _) (fun uri => ?_)
  refine moves_bind (moves_lift _) (fun rt => ?_)
  refine moves_bind (moves_validateClient _ _ _ _) (fun c => ?_)
  refine moves_ite (fun _ => moves_raise _ _) (fun _ => ?_)
  exact moves_bind (moves_lift _) (fun scopes => moves_ret (otherConsent σ) (.data c scopes))

theorem moves_token {grants : List Grant} (hg : ∀ g ∈ grants, GrantBlind σ g) (env : OEnv) {req : Request} (hs : SameGuess σ req) :
    Moves σ id (tokenEndpoint env grants req) (tokenEndpoint env grants req) := by
  unfold tokenEndpoint
  refine moves_catch ?_ (fun e => moves_lift _)
  unfold tokenBody
  dsimp only
  refine moves_ite (fun _ => moves_raise _ _) (fun _ => ?_)
  refine moves_lifted (fun grant hgr => ?_)
  have hmem : grant ∈ grants := by
    unfold validateGrantType at hgr
    split at hgr
    · split at hgr
      · rename_i g hf
        cases hgr
        exact List.mem_of_find?_eq_some hf
      · cases hgr
    · cases hgr
  refine moves_bind (moves_authLoop hs _ _) (fun c => ?_)
  refine moves_ite (c := grant.grantType.getD [] ∉ c.grantTypes) (fun _ => moves_raise _ _) (fun _ => ?_)
  exact moves_bind ((hg grant hmem).token _ _) (fun r => moves_lift _)

theorem moves_revokeEndpoint (env : OEnv) {req : Request} (hs : SameGuess σ req) :
    Moves σ id (revokeEndpoint env req) (revokeEndpoint env req) := by
  unfold revokeEndpoint
  refine moves_catch ?_ (fun e => moves_bind (moves_lift _) (fun r => moves_ret id (some r)))
  unfold revokeBody
  refine moves_bind (moves_authLoop hs _ _) (fun c => ?_)
  dsimp only
  refine moves_ite (fun _ => moves_ret _ _) (fun _ => ?_)
  refine moves_ite (fun _ => moves_raise _ _) (fun _ => ?_)
  refine moves_bind (moves_revoke _ _ _) (fun _ => ?_)
  exact moves_bind (moves_lift _) (fun r => moves_ret id (some r))

theorem objects_blind {t : Hooks} (hb : SecretBlind σ t) (env : OEnv) (p : Provider) :
    ∀ g ∈ p.objects env t, GrantBlind σ g := by
  intro g hg
  obtain ⟨cls, -, rfl⟩ := List.mem_map.mp hg
  exact grantOf_blind hb env p.cfg cls

/-! ## The hook of OpenID Connect -/

theorem moves_generateIdToken (env : OEnv) (cfg : Config) (token : Dict PyStr Val) (c : Client) (u : User) :
    Moves σ id (generateIdToken env cfg token c u) (generateIdToken env cfg token (otherSecret σ c) u) := by
  unfold generateIdToken
  refine moves_bind (moves_same (fun _ => rfl)) (fun info => ?_)
  refine moves_bind (moves_lift _) (fun scope => ?_)
  refine moves_bind (moves_lift _) (fun scopes => ?_)
  refine moves_bind (moves_same (fun _ => rfl)) (fun ui => ?_)
  refine moves_bind (moves_same (fun _ => rfl)) (fun now => ?_)
  refine moves_bind (moves_lift _) (fun hash => ?_)
  refine moves_bind (moves_same (fun _ => rfl)) (fun now1 => ?_)
  refine moves_bind (moves_lift _) (fun claims => ?_)
  refine moves_bind (moves_lift _) (fun kid => ?_)
  refine moves_bind (moves_same (fun _ => rfl)) (fun now2 => ?_)
  refine moves_bind (moves_lift _) (fun jwt => ?_)
  exact moves_bind (moves_same (fun _ => rfl)) (fun seed => moves_lift _)

theorem moves_oidcTokenResponse (env : OEnv) (cfg : Config) (token data : Dict PyStr Val) (c : Client) (u : User) :
    Moves σ id (oidcTokenResponse env cfg token data c u) (oidcTokenResponse env cfg token data (otherSecret σ c) u) := by
  unfold oidcTokenResponse
  refine moves_bind (moves_lift _) (fun scope => ?_)
  refine moves_bind (moves_lift _) (fun b => ?_)
  refine moves_ite (fun _ => ?_) (fun _ => moves_ret _ _)
  exact moves_bind (moves_generateIdToken _ _ _ _ _) (fun t => moves_ret _ _)

theorem moves_exec {p q : P α} (h : Moves σ id p q) {tr : List Ev} {out : ORes α} (hx : Exec p tr out) :
    Exec q (tr.map (otherEv σ)) out := by
  have := h tr out hx
  rwa [map_id_res] at this

theorem moves_oidcRequest (data : Dict PyStr PyStr) : Moves σ id (oidcAuthorizationRequest data) (oidcAuthorizationRequest data) := by
  unfold oidcAuthorizationRequest
  exact moves_ite (fun _ => moves_ret _ _) (fun _ => moves_ret _ _)

theorem empty_blind : SecretBlind σ Hooks.empty := ⟨by simp [Hooks.empty], by simp [Hooks.empty], by simp [Hooks.empty], by simp [Hooks.empty]⟩

theorem add_blind {t : Hooks} (hb : SecretBlind σ t) (env : OEnv) (cfg : Config) : SecretBlind σ (t.add (oidcHook env cfg)) where
  authorizationRequest := by
    intro h hh
    rcases List.mem_append.mp hh with hh | hh
    · exact hb.authorizationRequest h hh
    · cases List.mem_singleton.mp hh
      exact fun d tr out hx => moves_exec (moves_oidcRequest d) hx
  authorizationResponse := by
    intro h hh
    rcases List.mem_append.mp hh with hh | hh
    · exact hb.authorizationResponse h hh
    · cases hh
  tokenRequest := by
    intro h hh
    rcases List.mem_append.mp hh with hh | hh
    · exact hb.tokenRequest h hh
    · cases hh
  tokenResponse := by
    intro h hh
    rcases List.mem_append.mp hh with hh | hh
    · exact hb.tokenResponse h hh
    · cases List.mem_singleton.mp hh
      exact fun token d c u tr out hx => moves_exec (moves_oidcTokenResponse env cfg token d c u) hx

theorem addHook_blind {t : Hooks} (hb : SecretBlind σ t) (env : OEnv) (p : Provider) (cls : Option GrantClass) :
    SecretBlind σ (addHook t p cls (oidcHook env)) := by
  unfold addHook
  generalize p.grants.filter _ = l
  induction l generalizing t with
  | nil => exact hb
  | cons g l ih => exact ih (add_blind hb env p.cfg)

end Psion
