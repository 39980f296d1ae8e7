import Verif.Example.StackAnswer

/-!
# The operations of the example application succeed on a sound database
-/

namespace Psion.Props

open Psion Spec Example

variable {env : OEnv} {emailOk : PyStr → Bool}

/-! ## Whose information is read -/

/-- Information is read only about users that were found. -/
def FromUser (h : List Ev) : Op → Prop
  | .getUserinfo u _ => ∃ uid, (⟨.findUser uid, .ok (some u)⟩ : Ev) ∈ h
  | _ => True

abbrev UserOps (h : List Ev) {α : Type} (p : P α) : Prop :=
  WpP (fun _ _ => True) FromUser (fun _ _ => True) (fun _ _ => True) h p

theorem userOps_lift {α β : Type} {h : List Ev} {r : ORes α} {f : α → P β} (hf : ∀ a, r = .ok a → UserOps h (f a)) :
    UserOps h (P.bind (P.lift r) f) := by
  rw [UserOps, wpp_bind, wpp_lift, post_iff]
  exact ⟨hf, fun _ _ => trivial⟩

theorem userOps_call {β : Type} {h : List Ev} {o : Op} {f : o.Ans → P β} (ho : FromUser h o)
    (hf : ∀ a, UserOps (h ++ [⟨o, .ok a⟩]) (f a)) : UserOps h (P.bind (P.call o) f) := by
  rw [UserOps, wpp_bind, wpp_call]
  exact ⟨ho, fun a _ => hf a, fun _ _ => trivial⟩

theorem userOps_last {α : Type} {h : List Ev} {r : ORes α} : UserOps h (P.lift r) := by
  rw [UserOps, wpp_lift, post_iff]
  exact ⟨fun _ _ => trivial, fun _ _ => trivial⟩

theorem userOps_idToken {cfg : Config} {token : Dict PyStr Val} {client : Client} {user : User} {h : List Ev}
    (hu : ∃ uid, (⟨.findUser uid, .ok (some user)⟩ : Ev) ∈ h) : UserOps h (generateIdToken env cfg token client user) := by
  unfold generateIdToken
  refine userOps_call trivial fun info => userOps_lift fun scope _ => userOps_lift fun scopes _ => ?_
  refine userOps_call ?_ fun userinfo => userOps_call trivial fun now => userOps_lift fun hash _ => ?_
  · obtain ⟨uid, hm⟩ := hu
    exact ⟨uid, List.mem_append_left _ hm⟩
  refine userOps_call trivial fun now1 => userOps_lift fun claims _ => userOps_lift fun kid _ => ?_
  exact userOps_call trivial fun now2 => userOps_lift fun jwt _ => userOps_call trivial fun seed => userOps_last

theorem userOps_hook {cfg : Config} {token data : Dict PyStr Val} {client : Client} {user : User} {h : List Ev}
    (hu : ∃ uid, (⟨.findUser uid, .ok (some user)⟩ : Ev) ∈ h) :
    UserOps h (oidcTokenResponse env cfg token data client user) := by
  unfold oidcTokenResponse
  refine userOps_lift fun scope _ => userOps_lift fun b _ => ?_
  rw [UserOps, wpp_ite]
  refine ⟨fun _ => ?_, fun _ => trivial⟩
  rw [wpp_bind]
  exact wpp_mono (userOps_idToken hu) (fun _ _ h => h) (fun _ _ _ => trivial) (fun _ _ _ => trivial)

theorem userOps_code {cfg : Config} {valid : Dict PyStr Val} {client : Client} {h : List Ev} :
    UserOps h (codeTokenBody env cfg (exHooks env) valid client) := by
  unfold codeTokenBody
  refine userOps_lift fun c _ => userOps_call trivial fun found => ?_
  generalize h ++ _ = h1
  cases found with
  | none => trivial
  | some ac =>
    dsimp only
    have hval : UserOps h1 (validateAuthorizationCode env valid ac client) := by
      unfold validateAuthorizationCode
      refine userOps_lift fun uri _ => ?_
      rw [UserOps, wpp_ite]
      refine ⟨fun _ => trivial, fun _ => ?_⟩
      rw [wpp_ite]
      refine ⟨fun _ => trivial, fun _ => ?_⟩
      rw [wpp_ite]
      refine ⟨fun _ => trivial, fun _ => ?_⟩
      rw [wpp_ite]
      refine ⟨fun _ => trivial, fun _ => ?_⟩
      refine userOps_lift fun v _ => ?_
      match runChallenge env ac.challengeMethod ac.challenge v with
      | none => trivial
      | some (.error e) => trivial
      | some (.ok ok) =>
        dsimp only
        rw [UserOps, wpp_ite]
        refine ⟨fun _ => trivial, fun _ => userOps_call trivial fun now => ?_⟩
        rw [UserOps, wpp_ite]
        exact ⟨fun _ => trivial, fun _ => trivial⟩
    rw [UserOps, wpp_bind]
    refine wpp_mono hval (fun _ _ h => h) (fun h2 _ _ => ?_) (fun _ _ _ => trivial)
    refine userOps_call trivial fun user => ?_
    cases user with
    | none => trivial
    | some user =>
      dsimp only
      have hu : ∃ uid, (⟨.findUser uid, .ok (some user)⟩ : Ev) ∈ h2 ++ [⟨.findUser ac.userId, .ok (some user)⟩] :=
        ⟨_, List.mem_append_right _ List.mem_cons_self⟩
      generalize h2 ++ _ = h3 at hu ⊢
      refine userOps_call trivial fun access => ?_
      obtain ⟨uid, hu⟩ := hu
      have hu : ∃ uid, (⟨.findUser uid, .ok (some user)⟩ : Ev) ∈ h3 ++ [⟨.createAccess client (.user (some user)) ac.scopes, .ok access⟩] :=
        ⟨uid, List.mem_append_left _ hu⟩
      generalize h3 ++ _ = h4 at hu ⊢
      have hooks : ∀ h' acc, (∃ uid, (⟨.findUser uid, .ok (some user)⟩ : Ev) ∈ h') →
          UserOps h' (runHooks acc ((exHooks env).tokenResponse.map (fun h token => h token valid client user))) := by
        intro h' acc hu
        change UserOps h' (P.bind (oidcTokenResponse env exProvider.cfg acc valid client user) fun r => P.ret (updateHook acc r))
        rw [UserOps, wpp_bind]
        exact wpp_mono (userOps_hook hu) (fun _ _ h => h) (fun _ _ _ => trivial) (fun _ _ _ => trivial)
      rw [UserOps, wpp_bind]
      refine wpp_maybeRefresh (fun _ => trivial) (fun _ t => ?_) (fun _ => hooks _ _ hu) (fun _ => trivial)
      obtain ⟨uid, hu⟩ := hu
      exact hooks _ _ ⟨uid, List.mem_append_left _ hu⟩

theorem userOps_delete {code : ORes Val} {h : List Ev} : UserOps h (deleteCode code) := by
  unfold deleteCode
  refine userOps_lift fun c _ => ?_
  exact (wpp_call (o := .deleteCode c) (Q := fun _ _ => True)).mpr ⟨trivial, fun _ _ => trivial, fun _ _ => trivial⟩

theorem userOps_codeToken {cfg : Config} {data : Dict PyStr PyStr} {client : Client} {h : List Ev} :
    UserOps h (codeToken env cfg (exHooks env) data client) := by
  unfold codeToken
  rw [UserOps, wpp_pbind]
  change WpP _ _ _ _ _ (P.bind (P.lift (codeTokenParams data)) fun response => P.ret response)
  rw [wpp_bind, wpp_lift, post_iff]
  refine ⟨fun valid _ => ?_, fun e _ => ?_⟩
  · change UserOps h (P.finally_ (codeTokenBody env cfg (exHooks env) valid client) (deleteCode (item valid (py! "code"))))
    rw [UserOps, wpp_finally]
    exact wpp_mono userOps_code (fun _ _ h => h) (fun _ _ _ => userOps_delete) (fun _ _ _ => userOps_delete)
  · dsimp only
    rw [wpp_finally, wpp_raise]
    exact userOps_delete

theorem userOps_refresh {cfg : Config} {data : Dict PyStr PyStr} {client : Client} {h : List Ev} :
    UserOps h (refreshToken env cfg data client) := by
  unfold refreshToken
  rw [UserOps, wpp_ite]
  refine ⟨fun _ => trivial, fun _ => userOps_call trivial fun found => ?_⟩
  cases found with
  | none => trivial
  | some rt =>
    dsimp only
    rw [UserOps, wpp_bind]
    have hval : ∀ h', UserOps h' (validateRefreshToken rt client) := by
      intro h'
      unfold validateRefreshToken
      rw [UserOps, wpp_ite]
      refine ⟨fun _ => trivial, fun _ => userOps_call trivial fun now => ?_⟩
      rw [UserOps, wpp_ite]
      exact ⟨fun _ => trivial, fun _ => trivial⟩
    refine wpp_mono (hval _) (fun _ _ h => h) (fun h2 _ _ => ?_) (fun _ _ _ => trivial)
    refine userOps_lift fun sc _ => userOps_lift fun sc' _ => userOps_call trivial fun user => userOps_call trivial fun access => ?_
    rw [UserOps, wpp_bind]
    exact wpp_maybeRefresh (fun _ => trivial) (fun _ _ => trivial) (fun _ => trivial) (fun _ => trivial)

theorem userOps_token (req : Request) : UserOps [] (exProvider.token env (exHooks env) req) := by
  unfold Provider.token tokenEndpoint
  rw [UserOps, wpp_catch]
  have hbody : UserOps [] (tokenBody env (exProvider.objects env (exHooks env)) req) := by
    unfold tokenBody
    dsimp only
    rw [UserOps, wpp_ite]
    refine ⟨fun _ => trivial, fun _ => userOps_lift fun grant hgrant => ?_⟩
    obtain ⟨g, hg, hgt, rfl⟩ := validateGrantType_ok hgrant
    rw [UserOps, wpp_bind, grantOf_methods, grantOf_type]
    refine wpp_authenticate (fun _ _ => trivial) ?_ (fun _ _ _ _ => trivial) (fun _ _ _ => trivial)
    intro m id c _ _ _ _
    rw [wpp_ite]
    refine ⟨fun _ => trivial, fun _ => ?_⟩
    rw [wpp_bind]
    have hgrant : ∀ h0, UserOps h0 ((grantOf env exProvider.cfg (exHooks env) g).token (Dict.del req.data (py! "grant_type")) c) := by
      intro h0
      cases g with
      | authorizationCode => exact userOps_codeToken
      | clientCredentials => exact wpp_credentialsToken (fun _ _ => trivial) (fun _ _ _ _ => trivial) (fun _ _ _ _ => trivial)
      | refreshToken => exact userOps_refresh
    exact wpp_mono (hgrant _) (fun _ _ h => h) (fun _ _ _ => userOps_last) (fun _ _ _ => trivial)
  refine wpp_mono hbody (fun _ _ h => h) (fun _ _ _ => trivial) ?_
  intro h e _
  cases e with
  | py x => trivial
  | oauth y => exact userOps_last

theorem userOps_authorize (req : Request) : UserOps [] (exProvider.authorize env (exHooks env) req) := by
  unfold Provider.authorize authorizeEndpoint
  rw [UserOps, wpp_catch]
  have hbody : UserOps [] (authorizeBody (exProvider.objects env (exHooks env)) req) := by
    unfold authorizeBody
    dsimp only
    refine userOps_lift fun _ _ => ?_
    cases req.user with
    | none => trivial
    | some user =>
      dsimp only
      refine userOps_lift fun rt _ => userOps_lift fun grant hgrant => ?_
      obtain ⟨hg, rfl, rfl⟩ := validateResponseType_ok hgrant
      refine userOps_lift fun id _ => userOps_lift fun uri _ => ?_
      rw [UserOps, wpp_bind]
      refine wpp_validateClient trivial ?_ (fun _ _ _ => trivial) (fun _ _ _ => trivial) (fun _ => trivial)
      intro c _ _
      generalize ([] ++ [(⟨.findClient id, .ok (some c)⟩ : Ev)]) = h0
      rw [wpp_bind]
      change WpP _ _ _ _ _ (codeAuthorize env exProvider.cfg (exHooks env) (Dict.del req.data (py! "response_type")) c user)
      have hcode : UserOps h0 (codeAuthorize env exProvider.cfg (exHooks env) (Dict.del req.data (py! "response_type")) c user) := by
        unfold codeAuthorize validateAuthorizationRequest
        rw [UserOps, wpp_bind]
        refine wpp_mono (Q := fun _ _ => True) (E := fun _ _ => True) ?_ (fun _ _ h => h) (fun h1 valid _ => ?_) (fun _ _ _ => trivial)
        · refine userOps_lift fun params _ => ?_
          change UserOps h0 (P.bind (oidcAuthorizationRequest (Dict.del req.data (py! "response_type"))) fun r => P.ret (updateHook params r))
          rw [UserOps, wpp_bind]
          unfold oidcAuthorizationRequest
          rw [wpp_ite]
          exact ⟨fun _ => trivial, fun _ => trivial⟩
        · refine userOps_lift fun scopes _ => userOps_lift fun _ _ => userOps_call trivial fun choices => userOps_lift fun code _ => ?_
          refine userOps_call trivial fun _ => ?_
          change UserOps _ (P.bind (P.ret _) _)
          exact userOps_lift fun response _ => userOps_lift fun uri _ => userOps_last
      exact wpp_mono hcode (fun _ _ h => h) (fun _ _ _ => userOps_last) (fun _ _ _ => trivial)
  refine wpp_mono hbody (fun _ _ h => h) (fun _ _ _ => trivial) ?_
  intro h e _
  cases e with
  | py x => trivial
  | oauth y => exact userOps_last

/-! ## Operations on a sound database succeed -/

/-- A sound database with the users and clients of `m0`. -/
structure SoundFor (m0 m : Store) : Prop where
  sound : SoundStore m
  users : m.users = m0.users
  clients : m.clients = m0.clients

/-- The operation was performed on a sound database, with new draws, while the clock was running. -/
def Handled (env : OEnv) (m0 : Store) (ev : WEv) : Prop :=
  ∃ d w w', SoundFor m0 w.db ∧ NewWeb w d ev.op ∧ d.stamp ≤ d.stamp2 ∧ d.stamp2 < d.stamp + 3600 ∧
    wOp env d w ev.op = (w', ev.ans)

/-- The same for an operation of the library. -/
def LibHandled (env : OEnv) (m0 : Store) (ev : Ev) : Prop :=
  ∃ d m m', SoundFor m0 m ∧ NewDraw m d ev.op ∧ d.stamp ≤ d.stamp2 ∧ d.stamp2 < d.stamp + 3600 ∧
    exOp env d m ev.op = (m', ev.ans)

variable {m0 : Store}

theorem lib_handled {o : Op} {ans : ORes o.Ans} (h : Handled env m0 ⟨.lib o, ans⟩) : LibHandled env m0 ⟨o, ans⟩ := by
  obtain ⟨d, w, w', h1, h2, h3, h4, h5⟩ := h
  exact ⟨d, w.db, (exOp env d w.db o).1, h1, h2.lib o rfl, h3, h4, Prod.ext rfl (congrArg Prod.snd h5 : _)⟩

theorem libOf_handled {tr : List WEv} (h : ∀ ev ∈ tr, Handled env m0 ev) : ∀ ev ∈ libOf tr, LibHandled env m0 ev := by
  intro ev hev
  unfold libOf at hev
  obtain ⟨wev, hw, heq⟩ := List.mem_filterMap.mp hev
  obtain ⟨o, ans⟩ := wev
  cases o <;> cases heq
  exact lib_handled (h _ hw)

theorem handled_client {id : PyStr} {c : Client} (h : LibHandled env m0 ⟨.findClient id, .ok (some c)⟩) :
    ∃ row : ClientRow, c = row.client ∧ Encodable row.id ∧ (∀ s ∈ row.scopes, Encodable s) ∧ (m0.findClient row.id).isSome := by
  obtain ⟨d, m, m', hs, -, -, -, hop⟩ := h
  have hans : (m.findClient id).map ClientRow.client = some c := Except.ok.inj (congrArg Prod.snd hop)
  cases hrow : m.findClient id with
  | none => rw [hrow] at hans; cases hans
  | some row =>
    rw [hrow] at hans
    cases hans
    obtain ⟨h1, h2⟩ := hs.sound.plain.clients row (List.mem_of_find?_eq_some hrow)
    have hid : row.id = id := by
      have := List.find?_some hrow
      exact of_decide_eq_true this
    refine ⟨row, rfl, h1, h2, ?_⟩
    unfold Store.findClient at hrow ⊢
    rw [← hs.clients, hid, hrow]
    rfl

theorem handled_user {uid : PyStr} {u : User} (h : LibHandled env m0 ⟨.findUser uid, .ok (some u)⟩) :
    Encodable u.userId ∧ (m0.findUser u.userId).isSome := by
  obtain ⟨d, m, m', hs, -, -, -, hop⟩ := h
  have hans : (m.findUser uid).map UserRow.user = some u := Except.ok.inj (congrArg Prod.snd hop)
  cases hrow : m.findUser uid with
  | none => rw [hrow] at hans; cases hans
  | some row =>
    rw [hrow] at hans
    cases hans
    have h1 := hs.sound.plain.users row (List.mem_of_find?_eq_some hrow)
    have hid : row.id = uid := by
      have := List.find?_some hrow
      exact of_decide_eq_true this
    refine ⟨h1.1, ?_⟩
    unfold Store.findUser at hrow ⊢
    change (List.find? (fun u => decide (u.id = row.id)) m0.users).isSome
    rw [← hs.users, hid, hrow]
    rfl

theorem findUser_for {m : Store} (h : SoundFor m0 m) (uid : PyStr) : m.findUser uid = m0.findUser uid := by
  unfold Store.findUser
  rw [h.users]

theorem findClient_for {m : Store} (h : SoundFor m0 m) (id : PyStr) : m.findClient id = m0.findClient id := by
  unfold Store.findClient
  rw [h.clients]

theorem handled_code {code : PyStr} {ac : AuthCode} (h : LibHandled env m0 ⟨.getCode (.str code), .ok (some ac)⟩) :
    ac.scopes ≠ [] ∧ ∀ s ∈ ac.scopes, Encodable s := by
  obtain ⟨d, m, m', hs, -, -, -, hop⟩ := h
  have hans : Dict.get m.codes code = some ac := Except.ok.inj (congrArg Prod.snd hop)
  have hm := Dict.mem_of_get hans
  exact ⟨hs.sound.codes _ _ hm, hs.sound.plain.codes _ _ hm⟩

/-- The user of a refresh token is found. -/
theorem handled_refresh {token : PyStr} {rt : RefreshTok} {u : Option User}
    (h : LibHandled env m0 ⟨.getRefresh token, .ok (some rt)⟩) (hu : LibHandled env m0 ⟨.findUser rt.userId, .ok u⟩) :
    ∃ u', u = some u' := by
  obtain ⟨d, m, m', hs, -, -, -, hop⟩ := h
  have hans : m.findRefresh token = some rt := Except.ok.inj (congrArg Prod.snd hop)
  have h1 := hs.sound.refresh rt (List.mem_of_find?_eq_some hans)
  rw [findUser_for hs] at h1
  obtain ⟨d, m, m', hs, -, -, -, hop⟩ := hu
  have hans : (m.findUser rt.userId).map UserRow.user = u := Except.ok.inj (congrArg Prod.snd hop)
  rw [findUser_for hs] at hans
  cases hrow : m0.findUser rt.userId with
  | none => rw [hrow] at h1; cases h1
  | some row => rw [hrow] at hans; exact ⟨_, hans.symm⟩

/-- Operations that cannot fail. -/
theorem easy_ok {o : Op} {ans : ORes o.Ans} (h : LibHandled env m0 ⟨o, ans⟩) (h1 : ∀ code data c u, o ≠ .saveCode code data c u)
    (h2 : ∀ c w s, o ≠ .createAccess c w s) (h3 : ∀ c u s, o ≠ .createRefresh c u s) (h4 : ∀ u s, o ≠ .getUserinfo u s) :
    ∃ a, ans = .ok a := by
  obtain ⟨d, m, m', -, -, -, -, hop⟩ := h
  have hans : (exOp env d m o).2 = ans := congrArg Prod.snd hop
  rw [← hans]
  cases o with
  | saveCode code data c u => exact absurd rfl (h1 code data c u)
  | createAccess c w s => exact absurd rfl (h2 c w s)
  | createRefresh c u s => exact absurd rfl (h3 c u s)
  | getUserinfo u s => exact absurd rfl (h4 u s)
  | _ => exact ⟨_, rfl⟩

theorem access_ok (hl : FloatLaws env.cr.fe) {c : Client} {o : Owner} {s : List PyStr} {ans : ORes PyStr}
    (h : LibHandled env m0 ⟨.createAccess c o s, ans⟩) {sub : PyStr} (ho : ownerId o = .ok sub) (hc : Encodable c.clientId)
    (hu : Encodable sub) (hs : ∀ x ∈ s, Encodable x) : ∃ a, ans = .ok a := by
  obtain ⟨d, m, m', -, -, h1, h2, hop⟩ := h
  have hans : liftRes (createAccess env d c o s) = ans := congrArg Prod.snd hop
  obtain ⟨t, ht, -⟩ := createAccess_for hl ho hc hu hs h1 h2
  rw [← hans, ht]
  exact ⟨t, rfl⟩

theorem refresh_ok {c : Client} {u : User} {s : List PyStr} {ans : ORes PyStr}
    (h : LibHandled env m0 ⟨.createRefresh c (some u) s, ans⟩) (hc : (m0.findClient c.clientId).isSome)
    (hu : (m0.findUser u.userId).isSome) : ∃ a, ans = .ok a := by
  obtain ⟨d, m, m', hs, hn, -, -, hop⟩ := h
  have hans : (createRefresh m d c (some u) s).2 = ans := congrArg Prod.snd hop
  rw [← hans]
  unfold createRefresh
  dsimp only
  split
  · exact ⟨_, rfl⟩
  · obtain ⟨t, ht, -⟩ := C10_secret_token d.choices32.val (by
      intro h0
      have := d.choices32.property
      rw [h0] at this
      cases this)
    rw [ht]
    dsimp only
    rw [if_pos ⟨by rw [hn.refresh _ _ _ t rfl ht]; rfl, by rw [findClient_for hs]; exact hc, by rw [findUser_for hs]; exact hu⟩]
    exact ⟨_, rfl⟩

theorem info_ok {u : User} {s : List PyStr} {ans : ORes (Dict PyStr Val)} (h : LibHandled env m0 ⟨.getUserinfo u s, ans⟩)
    (hu : (m0.findUser u.userId).isSome) : ∃ a, ans = .ok a := by
  obtain ⟨d, m, m', hs, -, -, -, hop⟩ := h
  have hans : (exOp env d m (.getUserinfo u s)).2 = ans := congrArg Prod.snd hop
  rw [← hans]
  unfold exOp
  dsimp only
  rw [findUser_for hs]
  cases hrow : m0.findUser u.userId with
  | none => rw [hrow] at hu; cases hu
  | some row => exact ⟨_, rfl⟩

/-- Client, owner and scopes of the tokens that are made. -/
theorem justified_facts {req : Request} {h : List Ev} (hh : ∀ ev ∈ h, LibHandled env m0 ev) {c : Client} {o : Owner}
    {s : List PyStr} (hj : Justified env exProvider req h c o s) :
    Encodable c.clientId ∧ (m0.findClient c.clientId).isSome ∧ (∀ x ∈ s, Encodable x) ∧
      (o = .client c ∨ ∃ u, o = .user (some u) ∧ Encodable u.userId ∧ (m0.findUser u.userId).isSome) := by
  obtain ⟨g, -, -, -, ⟨_, id, hfc, -⟩, hg⟩ := hj
  obtain ⟨row, rfl, hid, henc, hsome⟩ := handled_client (hh _ hfc)
  have hallowed : ∀ v l, ScopeArg v → row.client.allowedScopes v = .ok l → ∀ x ∈ l, Encodable x := by
    intro v l hv hl x hx
    obtain ⟨l', hl', hsub⟩ := allowed_row row hv
    rw [hl] at hl'
    cases hl'
    exact henc x (hsub x hx)
  refine ⟨hid, hsome, ?_⟩
  cases g with
  | authorizationCode =>
    obtain ⟨u, rfl, code, ac, _, _, _, -, hc, -, -, -, -, -, -, -, -, hu, rfl⟩ := hg
    exact ⟨(handled_code (hh _ hc)).2, Or.inr ⟨u, rfl, handled_user (hh _ hu)⟩⟩
  | clientCredentials =>
    obtain ⟨rfl, ⟨-, hs⟩ | ⟨_, ws, -, -, -, -, hs, -⟩⟩ := hg
    · exact ⟨hallowed _ _ (Or.inl rfl) hs, Or.inl rfl⟩
    · exact ⟨hallowed _ _ (scopeArg_list ws) hs, Or.inl rfl⟩
  | refreshToken =>
    obtain ⟨u, rfl, _, _, _, base, -, hr, -, -, -, hu, -, -, -, hs⟩ := hg
    obtain ⟨u', rfl⟩ := handled_refresh (hh _ hr) (hh _ hu)
    exact ⟨hallowed _ _ (scopeArg_list base) hs, Or.inr ⟨u', rfl, handled_user (hh _ hu)⟩⟩

theorem token_ops_ok (hl : FloatLaws env.cr.fe) {req : Request} {tr : List Ev}
    (hx : Partial (exProvider.token env (exHooks env) req) tr) (hh : ∀ ev ∈ tr, LibHandled env m0 ev) :
    ∀ ev ∈ tr, ∃ a, ev.ans = .ok a := by
  intro ev hev
  obtain ⟨pre, post, rfl⟩ := List.append_of_mem hev
  have hop : TokenOp env exProvider req pre ev.op := wpp_partial hx (wpp_token (exHooks_benign env) exProvider req) answers_true rfl
  have hus : FromUser pre ev.op := wpp_partial hx (userOps_token req) answers_true rfl
  have hpre : ∀ ev ∈ pre, LibHandled env m0 ev := fun ev h => hh ev (List.mem_append_left _ h)
  have hev := hh ev hev
  obtain ⟨o, ans⟩ := ev
  cases o with
  | saveCode => exact absurd hop id
  | createAccess c o s =>
    obtain ⟨h1, h2, h3, rfl | ⟨u, rfl, h4, -⟩⟩ := justified_facts hpre hop
    · exact access_ok hl hev rfl h1 h1 h3
    · exact access_ok hl hev rfl h1 h4 h3
  | createRefresh c u s =>
    obtain ⟨h1, h2, h3, h | ⟨u, h, -, h5⟩⟩ := justified_facts hpre hop.2
    · cases h
    · cases h
      exact refresh_ok hev h2 h5
  | getUserinfo u s =>
    obtain ⟨uid, hm⟩ := hus
    exact info_ok hev (handled_user (hpre _ hm)).2
  | _ => exact easy_ok hev nofun nofun nofun nofun

theorem revoke_ops_ok {req : Request} {tr : List Ev} (hx : Partial (exProvider.revoke env req) tr)
    (hh : ∀ ev ∈ tr, LibHandled env m0 ev) : ∀ ev ∈ tr, ∃ a, ev.ans = .ok a := by
  intro ev hev
  obtain ⟨pre, post, rfl⟩ := List.append_of_mem hev
  have hop : RevokeOp req pre ev.op := wpp_partial hx (wpp_revoke env exProvider req) answers_true rfl
  have hev := hh ev hev
  obtain ⟨o, ans⟩ := ev
  cases o with
  | saveCode | createAccess | createRefresh | getUserinfo => exact absurd hop id
  | _ => exact easy_ok hev nofun nofun nofun nofun

/-- The hook of the example passes the nonce on. -/
theorem hooked_nonce {data : Dict PyStr PyStr} {valid : Dict PyStr Val} {n : PyStr} (h : AuthHooked (exHooks env) data valid)
    (hn : Dict.get data (py! "nonce") = some n) (hne : n ≠ []) : Dict.get valid (py! "nonce") = some (.str n) := by
  obtain ⟨d, tr, -, hx⟩ := h
  change Exec (P.bind (oidcAuthorizationRequest data) fun r => P.ret (updateHook d r)) tr (.ok valid) at hx
  have hb : blank data (py! "nonce") = false := blank_eq_false.mpr ⟨n, hn, hne⟩
  unfold oidcAuthorizationRequest at hx
  rw [if_neg (by rw [hb]; exact Bool.false_ne_true)] at hx
  change Exec (P.ret (updateHook d (some [(py! "nonce", optVal (Dict.get data (py! "nonce")))]))) tr (.ok valid) at hx
  cases hx
  rw [hn]
  unfold updateHook
  rw [Dict.get_update_ok (by simp [Dict.Ok, Dict.keys])]
  rfl

theorem code_ok {code : PyStr} {data : Dict PyStr Val} {c : Client} {u : User} {ans : ORes Unit} {req : Request} {h : List Ev}
    (hev : LibHandled env m0 ⟨.saveCode code data c u, ans⟩) (hh : ∀ ev ∈ h, LibHandled env m0 ev)
    (ha : Authorizes exProvider req h c u data) {n : PyStr} (hn : Dict.get data (py! "nonce") = some (.str n)) (hlen : n.length ≤ 256)
    (hcode : code.length ≤ 64) (hu : (m0.findUser u.userId).isSome) : ∃ a, ans = .ok a := by
  obtain ⟨d, m, m', hs, hnew, -, -, hop⟩ := hev
  have hans : (saveCode m d code data c u).2 = ans := congrArg Prod.snd hop
  obtain ⟨id, -, hfc⟩ := ha.client
  obtain ⟨row, rfl, -, -, hsome⟩ := handled_client (hh _ hfc)
  obtain ⟨uri, -, -, huri⟩ := ha.uri
  obtain ⟨ch, -, -, hch, hchd⟩ := ha.challenge
  obtain ⟨mt, -, hmt, hmtd⟩ := ha.method
  obtain ⟨text, ws, _, -, -, hws, -⟩ := ha.scopes
  have hmlen : mt.length ≤ 16 := by rcases hmt with rfl | rfl <;> decide
  rw [← hans]
  unfold saveCode
  rw [huri, hws, hchd, hmtd, hn]
  unfold strList
  dsimp only
  rw [textList_strs]
  dsimp only
  rw [if_pos ⟨hcode, hch, hmlen, hlen, hnew.code _ _ _ _ rfl, by rw [findClient_for hs]; exact hsome, by rw [findUser_for hs]; exact hu⟩]
  exact ⟨_, rfl⟩

theorem authorize_ops_ok {req : Request} {tr : List Ev} (hx : Partial (exProvider.authorize env (exHooks env) req) tr)
    (hh : ∀ ev ∈ tr, LibHandled env m0 ev)
    (hnonce : ∃ n, Dict.get req.data (py! "nonce") = some n ∧ n ≠ [] ∧ n.length ≤ 256)
    (huser : ∀ u, req.user = some u → (m0.findUser u.userId).isSome) : ∀ ev ∈ tr, ∃ a, ev.ans = .ok a := by
  intro ev hev
  obtain ⟨pre, post, rfl⟩ := List.append_of_mem hev
  have hop : AuthorizeOp (exHooks env) exProvider req pre ev.op :=
    wpp_partial hx (wpp_authorize (exHooks_benign env) exProvider req) answers_true rfl
  have hus : FromUser pre ev.op := wpp_partial hx (userOps_authorize req) answers_true rfl
  have hpre : ∀ ev ∈ pre, LibHandled env m0 ev := fun ev h => hh ev (List.mem_append_left _ h)
  have hev := hh ev hev
  obtain ⟨o, ans⟩ := ev
  cases o with
  | createAccess | createRefresh => exact absurd hop id
  | saveCode code data c u =>
    obtain ⟨ha, ⟨choices, -, hsec⟩, hhooked⟩ := hop
    obtain ⟨n, hn, hne, hlen⟩ := hnonce
    have hn' : Dict.get (Dict.del req.data (py! "response_type")) (py! "nonce") = some n := by
      rw [Dict.get_del _ (by decide)]
      exact hn
    have hcode : code.length ≤ 64 := by
      unfold secretToken at hsec
      split at hsec
      · cases hsec
      · cases hsec
        rw [List.length_map, choices.property]
        exact Nat.le_refl _
    exact code_ok hev hpre ha (hooked_nonce hhooked hn' hne) hlen hcode (huser u ha.user)
  | getUserinfo u s =>
    obtain ⟨uid, hm⟩ := hus
    exact info_ok hev (handled_user (hpre _ hm)).2
  | _ => exact easy_ok hev nofun nofun nofun nofun

/-- The answers of all operations of a proper request. -/
theorem app_ops_ok (hl : FloatLaws env.cr.fe) {req : WebRequest} (hacc : Proper req) {tr : List WEv}
    (hx : WPartial (app env (exHooks env) emailOk req) tr) (hh : ∀ ev ∈ tr, Handled env m0 ev) :
    ∀ ev ∈ tr, ∃ a, ev.ans = .ok a := by
  have hlib : ∀ ev ∈ libOf tr, ∃ a, ev.ans = .ok a := by
    have hlh := libOf_handled hh
    rcases app_call hx with h0 | ⟨call, hcall⟩
    · rw [h0]
      intro ev h
      cases h
    · cases call with
      | authorize p r =>
        obtain ⟨rfl, hr, hp, c, u, t, hc, rfl, hcr, hm⟩ := hcall
        have ha := createRequest_faithful hcr hacc.names
        refine authorize_ops_ok hp hlh (hacc.nonce hr (hm.resolve_right (hacc.method hr)) (some u) r ha) ?_
        intro u' hu'
        rw [ha.user] at hu'
        cases hu'
        obtain ⟨d, w, w', hs, -, -, -, hop⟩ := hh _ List.mem_cons_self
        have hans : (if (c.sessionId, c.userId) ∈ w.sessions then some ((w.db.findUser c.userId).map UserRow.user) else none) =
            some (some u) := Except.ok.inj (congrArg Prod.snd hop)
        split at hans
        · have hans := Option.some.inj hans
          cases hrow : w.db.findUser c.userId with
          | none => rw [hrow] at hans; cases hans
          | some row =>
            rw [hrow] at hans
            cases hans
            have hid : row.id = c.userId := by
              have := List.find?_some hrow
              exact of_decide_eq_true this
            change (m0.findUser row.id).isSome
            rw [hid, ← findUser_for hs, hrow]
            rfl
        · cases hans
      | token p r =>
        obtain ⟨rfl, hr, hp, -⟩ := hcall
        exact token_ops_ok hl hp hlh
      | revoke p r =>
        obtain ⟨rfl, hr, hp, -⟩ := hcall
        exact revoke_ops_ok hp hlh
      | consent p r => exact absurd hcall id
  intro ev hev
  have hev' := hh ev hev
  obtain ⟨o, ans⟩ := ev
  cases o with
  | lib o => exact hlib ⟨o, ans⟩ (List.mem_filterMap.mpr ⟨_, hev, rfl⟩)
  | saveSession sid uid =>
    obtain ⟨pre, post, rfl⟩ := List.append_of_mem hev
    obtain ⟨-, -, hm, hlen⟩ := app_op hx
    obtain ⟨d, w, w', hs, -, -, -, hop⟩ := hh _ (List.mem_append_left _ hm)
    have hans : (w.db.users.find? (fun u => decide (u.email = req.form.email))).map (fun u => (u.id, u.password)) =
        some (uid, req.form.password) := Except.ok.inj (congrArg Prod.snd hop)
    obtain ⟨d', w2, w2', hs2, hnew, -, -, hop2⟩ := hev'
    have hans2 : (wOp env d' w2 (.saveSession sid uid)).2 = ans := congrArg Prod.snd hop2
    have huser : (w2.db.findUser uid).isSome := by
      cases hrow : w.db.users.find? (fun u => decide (u.email = req.form.email)) with
      | none => rw [hrow] at hans; cases hans
      | some row =>
        rw [hrow] at hans
        have huid : row.id = uid := congrArg Prod.fst (Option.some.inj hans)
        have hmem := List.mem_of_find?_eq_some hrow
        rw [hs.users, ← hs2.users] at hmem
        unfold Store.findUser
        rw [List.find?_isSome]
        exact ⟨row, hmem, decide_eq_true huid⟩
    have hcond : sid.length ≤ 32 ∧ sid ∉ w2.sessions.map Prod.fst ∧ (w2.db.findUser uid).isSome :=
      ⟨Nat.le_of_eq hlen, hnew.session _ _ rfl, huser⟩
    simp only [wOp] at hans2
    rw [if_pos hcond] at hans2
    exact ⟨(), hans2.symm⟩
  | _ =>
    obtain ⟨d, w, w', -, -, -, -, hop⟩ := hev'
    have hans := congrArg Prod.snd hop
    simp only [wOp] at hans
    exact ⟨_, hans.symm⟩

/-! ## The database stays sound -/

/-- What is asked of an operation: a code is stored with scopes. -/
def GoodOp (o : WOp) : Prop :=
  ∀ code data c u, o = .lib (.saveCode code data c u) →
    ∃ ws, ws ≠ [] ∧ (∀ s ∈ ws, Encodable s) ∧ Dict.get data (py! "scopes") = some (strList ws)

theorem soundFor_same {m m' : Store} (h : SoundFor m0 m) (h1 : m'.users = m.users) (h2 : m'.clients = m.clients)
    (h3 : ∀ x ∈ m'.codes, x ∈ m.codes) (h4 : ∀ x ∈ m'.refresh, x ∈ m.refresh) : SoundFor m0 m' := by
  refine ⟨⟨⟨?_, ?_, ?_, ?_⟩, ?_, ?_⟩, h1.trans h.users, h2.trans h.clients⟩
  · rw [h1]; exact h.sound.plain.users
  · rw [h2]; exact h.sound.plain.clients
  · exact fun code ac hm => h.sound.plain.codes code ac (h3 _ hm)
  · exact fun rt hm => h.sound.plain.refresh rt (h4 _ hm)
  · exact fun code ac hm => h.sound.codes code ac (h3 _ hm)
  · intro rt hm
    unfold Store.findUser
    rw [h1]
    exact h.sound.refresh rt (h4 _ hm)

theorem sound_saveCode {m : Store} (h : SoundFor m0 m) {d : Draw} {code : PyStr} {data : Dict PyStr Val} {c : Client} {u : User}
    (hg : GoodOp (.lib (.saveCode code data c u))) : SoundFor m0 (saveCode m d code data c u).1 := by
  obtain ⟨ws, hne, henc, hws⟩ := hg code data c u rfl
  unfold saveCode
  rw [hws]
  unfold strList
  split
  · rename_i scopes _ _ _ _ heq _ _ _
    cases heq
    rw [textList_strs]
    dsimp only
    split
    · refine ⟨⟨⟨h.sound.plain.users, h.sound.plain.clients, ?_, h.sound.plain.refresh⟩, ?_, h.sound.refresh⟩, h.users, h.clients⟩
      · intro code' ac hm
        rcases List.mem_cons.mp hm with hm | hm
        · cases hm; exact henc
        · exact h.sound.plain.codes code' ac hm
      · intro code' ac hm
        rcases List.mem_cons.mp hm with hm | hm
        · cases hm; exact hne
        · exact h.sound.codes code' ac hm
    · exact h
  · exact h
  · exact h

theorem sound_createRefresh {m : Store} (h : SoundFor m0 m) {d : Draw} {c : Client} {u : Option User} {s : List PyStr} :
    SoundFor m0 (createRefresh m d c u s).1 := by
  unfold createRefresh
  split
  · exact h
  · rename_i u
    split
    · exact h
    · split
      · exact h
      · rename_i token ht
        split
        · rename_i hc
          refine ⟨⟨⟨h.sound.plain.users, h.sound.plain.clients, h.sound.plain.codes, ?_⟩, h.sound.codes, ?_⟩, h.users, h.clients⟩
          · intro rt hm
            rcases List.mem_cons.mp hm with hm | hm
            · cases hm; exact plain_secret d.choices32 ht
            · exact h.sound.plain.refresh rt hm
          · intro rt hm
            rcases List.mem_cons.mp hm with hm | hm
            · cases hm; exact hc.2.2
            · exact h.sound.refresh rt hm
        · exact h

theorem sound_exOp {m : Store} (h : SoundFor m0 m) (d : Draw) (o : Op) (hg : GoodOp (.lib o)) :
    SoundFor m0 (exOp env d m o).1 := by
  cases o with
  | saveCode code data c u => exact sound_saveCode h hg
  | createRefresh c u s => exact sound_createRefresh h
  | deleteCode v =>
    change SoundFor m0 (Example.deleteCode m v)
    unfold Example.deleteCode
    split
    · exact soundFor_same h rfl rfl (fun x hx => (List.mem_filter.mp hx).1) (fun x hx => hx)
    · exact h
  | revoke c t hint => exact soundFor_same h rfl rfl (fun x hx => hx) (fun x hx => (List.mem_filter.mp hx).1)
  | getUserinfo u s =>
    simp only [exOp]
    split <;> exact h
  | _ => exact h

theorem sound_wOp {w : WStore} (h : SoundFor m0 w.db) (d : Draw) (o : WOp) (hg : GoodOp o) :
    SoundFor m0 (wOp env d w o).1.db := by
  cases o with
  | lib o => exact sound_exOp h d o hg
  | saveSession sid uid =>
    simp only [wOp]
    split <;> exact h
  | deleteRefresh uid => exact soundFor_same h rfl rfl (fun x hx => hx) (fun x hx => (List.mem_filter.mp hx).1)
  | _ => exact h

/-- Every operation of the history finds a sound database. -/
theorem operates_handled {w w' : WStore} {l : List (Draw × WStep)} (h : SoundFor m0 w.db) (hrun : Operates env w l w')
    (hg : ∀ p ∈ l, GoodOp p.2.2.op) : ∀ d i ev, (d, i, ev) ∈ l →
      ∃ w1 w2, SoundFor m0 w1.db ∧ NewWeb w1 d ev.op ∧ wOp env d w1 ev.op = (w2, ev.ans) := by
  induction hrun with
  | nil => intro d i ev hm; cases hm
  | step w w1 w2 d' j ev' l hop hnew _ ih =>
    intro d i ev hm
    rcases List.mem_cons.mp hm with hm | hm
    · cases hm
      exact ⟨w, w1, h, hnew, hop⟩
    · have h1 : w1 = (wOp env d' w ev'.op).1 := (congrArg Prod.fst hop).symm
      refine ih ?_ (fun p hp => hg p (List.mem_cons_of_mem _ hp)) d i ev hm
      rw [h1]
      exact sound_wOp h d' ev'.op (hg _ List.mem_cons_self)

/-- Codes are stored with scopes, if no authorization is asked for blank scopes only. -/
theorem app_good {req : WebRequest} (ht : Tame req) {tr : List WEv} (hx : WPartial (app env (exHooks env) emailOk req) tr) :
    ∀ ev ∈ tr, GoodOp ev.op := by
  rintro ⟨o, ans⟩ hev code data c u ho
  dsimp only at ho
  subst ho
  have hm : (⟨.saveCode code data c u, ans⟩ : Ev) ∈ libOf tr := List.mem_filterMap.mpr ⟨_, hev, rfl⟩
  rcases app_call hx with h0 | ⟨call, hcall⟩
  · rw [h0] at hm
    cases hm
  · obtain ⟨pre, post, hsp⟩ := List.append_of_mem hm
    cases call with
    | authorize p r =>
      obtain ⟨rfl, hr, hp, ck, u', t, hc, -, hcr, -⟩ := hcall
      have ha := createRequest_faithful hcr ht.names
      have hop : AuthorizeOp (exHooks env) exProvider r pre (.saveCode code data c u) :=
        wpp_partial hp (wpp_authorize (exHooks_benign env) exProvider r) answers_true hsp
      obtain ⟨text, ws, _, htext, hwords, hws, hin, -⟩ := hop.1.scopes
      refine ⟨ws, ?_, ?_, hws⟩
      · rintro rfl
        exact ht.scope hr _ r text ha htext hwords
      · intro s hs
        have hs := hin s hs
        have : ∀ s ∈ exProvider.cfg.scopes, ∀ c ∈ s, c < 128 := by decide
        exact encodable_ascii (this s hs)
    | token p r =>
      obtain ⟨rfl, -, hp, -⟩ := hcall
      have hop : TokenOp env exProvider r pre (.saveCode code data c u) :=
        wpp_partial hp (wpp_token (exHooks_benign env) exProvider r) answers_true hsp
      exact absurd hop id
    | revoke p r =>
      obtain ⟨rfl, -, hp, -⟩ := hcall
      have hop : RevokeOp r pre (.saveCode code data c u) := wpp_partial hp (wpp_revoke env exProvider r) answers_true hsp
      exact absurd hop id
    | consent p r => exact absurd hcall id

/-! ## The clock -/

/-- The times that were read. -/
def stampsIn (tr : List Ev) : List Int := tr.filterMap fun
  | ⟨.stamp, .ok t⟩ => some t
  | _ => none

theorem stamps_append (a b : List Ev) : stampsIn (a ++ b) = stampsIn a ++ stampsIn b := by
  unfold stampsIn; rw [List.filterMap_append]

theorem stamps_cons (t : Int) (b : List Ev) : stampsIn (⟨.stamp, .ok t⟩ :: b) = t :: stampsIn b := rfl

/-- The times are those of the draws. -/
theorem stamps_drawn {i : Nat} {l : List (Draw × WStep)}
    (h : ∀ d j ev, (d, j, ev) ∈ l → ∃ w w', wOp env d w ev.op = (w', ev.ans)) :
    (stampsIn (libOf (ofWeb i (stepsOf l)))).Sublist
      ((l.filter fun p => decide (p.2.1 = i)).flatMap fun p => [p.1.stamp, p.1.stamp2]) := by
  induction l with
  | nil => exact List.Sublist.slnil
  | cons p l ih =>
    obtain ⟨d, j, ev⟩ := p
    have ih := ih fun d j ev hm => h d j ev (List.mem_cons_of_mem _ hm)
    by_cases hj : j = i
    · subst hj
      have h1 : ofWeb j (stepsOf ((d, j, ev) :: l)) = ev :: ofWeb j (stepsOf l) := by simp [stepsOf, ofWeb]
      have h2 : (((d, j, ev) :: l).filter fun p => decide (p.2.1 = j)) = (d, j, ev) :: l.filter fun p => decide (p.2.1 = j) := by simp
      rw [h1, h2, List.flatMap_cons]
      have h3 : libOf (ev :: ofWeb j (stepsOf l)) = libOf [ev] ++ libOf (ofWeb j (stepsOf l)) := libOf_append [ev] _
      rw [h3, stamps_append]
      refine List.Sublist.append ?_ ih
      obtain ⟨w, w', hop⟩ := h d j ev List.mem_cons_self
      obtain ⟨o, ans⟩ := ev
      cases o with
      | lib o =>
        cases o with
        | stamp =>
          have hans : (.ok d.stamp : ORes Int) = ans := congrArg Prod.snd hop
          subst hans
          exact List.Sublist.cons_cons _ (List.nil_sublist _)
        | _ => exact List.nil_sublist _
      | _ => exact List.nil_sublist _
    · have h1 : ofWeb i (stepsOf ((d, j, ev) :: l)) = ofWeb i (stepsOf l) := by simp [stepsOf, ofWeb, hj]
      have h2 : (((d, j, ev) :: l).filter fun p => decide (p.2.1 = i)) = l.filter fun p => decide (p.2.1 = i) := by simp [hj]
      rw [h1, h2]
      exact ih

theorem prompt_clock {i : Nat} {l : List (Draw × WStep)} (hp : PromptFor i l)
    (h : ∀ d j ev, (d, j, ev) ∈ l → ∃ w w', wOp env d w ev.op = (w', ev.ans))
    (hok : ∀ ev ∈ libOf (ofWeb i (stepsOf l)), ∃ a, ev.ans = .ok a) : ClockRuns (libOf (ofWeb i (stepsOf l))) 36000 := by
  refine ⟨fun r hr => hok _ hr, ?_⟩
  intro pre mid post t t' hsp
  have hpw := List.Pairwise.sublist (stamps_drawn h) hp
  rw [hsp, stamps_append, stamps_cons, stamps_append, stamps_cons] at hpw
  have h1 := (List.pairwise_append.mp hpw).2.1
  have h2 := (List.pairwise_cons.mp h1).1 t' (List.mem_append_right _ List.mem_cons_self)
  exact ⟨h2.1, by omega⟩

theorem prompt_draw {i : Nat} {l : List (Draw × WStep)} (hp : PromptFor i l) {d : Draw} {ev : WEv} (hm : (d, i, ev) ∈ l) :
    d.stamp ≤ d.stamp2 ∧ d.stamp2 < d.stamp + 3600 := by
  have hm' : (d, i, ev) ∈ l.filter fun p => decide (p.2.1 = i) := List.mem_filter.mpr ⟨hm, decide_eq_true rfl⟩
  obtain ⟨a, b, hab⟩ := List.append_of_mem hm'
  unfold PromptFor at hp
  rw [hab, List.flatMap_append, List.flatMap_cons] at hp
  have h1 := (List.pairwise_append.mp hp).2.1
  exact (List.pairwise_cons.mp h1).1 _ List.mem_cons_self

theorem mem_stepsOf {l : List (Draw × WStep)} {s : WStep} (h : s ∈ stepsOf l) : ∃ d, (d, s) ∈ l := by
  obtain ⟨⟨d, s'⟩, hm, rfl⟩ := List.mem_map.mp h
  exact ⟨d, hm⟩

end Psion.Props
