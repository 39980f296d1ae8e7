import Verif.Spec.StandardScopes
import Verif.Props.ToyExample

/-!
# Property C63: authorization requests with the example application
-/

namespace Psion.Props

open Psion Spec Example

/-- A valid authorization request of the logged-in user `u` for the client `row`. -/
structure ValidAuth (row : ClientRow) (u : User) (req : Request) (uri challenge method : PyStr) (ws : List PyStr) : Prop where
  user : req.user = some u
  responseType : Dict.get req.data (py! "response_type") = some (py! "code")
  registered : py! "code" ∈ row.responseTypes
  names : Dict.get req.data (py! "client_id") = some row.id
  clientId : row.id ≠ []
  returns : Dict.get req.data (py! "redirect_uri") = some uri
  uriNonempty : uri ≠ []
  uriRegistered : uri ∈ row.redirectUris
  challenges : Dict.get req.data (py! "code_challenge") = some challenge
  challengeMin : 43 ≤ challenge.length
  challengeMax : challenge.length ≤ 128
  transforms : Dict.get req.data (py! "code_challenge_method") = some method
  methodKnown : method = py! "plain" ∨ method = py! "S256"
  scope : ∃ text, Dict.get req.data (py! "scope") = some text ∧ text ≠ [] ∧ Words text ws
  scopes : ∀ s ∈ ws, s ∈ standardScopes ∧ s ∈ row.scopes
  encodable : ∀ k v, Dict.get req.data k = some v → Encodable v

/-- The request runs undisturbed: at every operation the database works, contains the client and the user, and does not contain
the code that is to be stored. Other requests may run at the same time. -/
def Undisturbed (env : OEnv) (row : ClientRow) (u : User) (ev : Ev) : Prop :=
  ∃ d m m', exOp env d m ev.op = (m', ev.ans) ∧ m.findClient row.id = some row ∧ (m.findUser u.userId).isSome ∧
    ∀ code data c x, ev.op = .saveCode code data c x → Dict.get m.codes code = none

/-- What the adapter stored. -/
structure StoredCode (m' : Store) (row : ClientRow) (u : User) (uri challenge method nonce : PyStr) (ws : List PyStr)
    (code : PyStr) (now : Int) : Prop where
  stored : Dict.get m'.codes code = some ⟨row.id, u.userId, uri, ws, challenge, method, some nonce, now + 86400 * 1000000⟩

theorem blank_of_get {data : Dict PyStr PyStr} {k v : PyStr} (h : Dict.get data k = some v) (hv : v ≠ []) :
    blank data k = false := by
  unfold blank
  rw [h]
  cases v with
  | nil => exact absurd rfl hv
  | cons => rfl

theorem exHooks_authorize (env : OEnv) :
    (exHooks env).authorizationRequest = [oidcAuthorizationRequest] ∧ (exHooks env).authorizationResponse = [] := ⟨rfl, rfl⟩

/-- The parameters stored with the code of a valid request. -/
def validParams (data : Dict PyStr PyStr) (uri challenge method nonce : PyStr) (ws : List PyStr) : Dict PyStr Val :=
  [(py! "code_challenge", .str challenge), (py! "code_challenge_method", .str method), (py! "redirect_uri", .str uri),
    (py! "scopes", strList ws), (py! "state", optVal (Dict.get data (py! "state"))), (py! "nonce", .str nonce)]

theorem saveCode_valid {row : ClientRow} {u : User} {req : Request} {uri challenge method nonce : PyStr}
    {ws : List PyStr} (hv : ValidAuth row u req uri challenge method ws) (hn : nonce.length ≤ 256) {m : Store} {d : Draw}
    {code : PyStr} {data : Dict PyStr PyStr} (hc : code.length ≤ 64) (hcl : m.findClient row.id = some row)
    (hus : (m.findUser u.userId).isSome) (hf : Dict.get m.codes code = none) :
    saveCode m d code (validParams data uri challenge method nonce ws) row.client u =
      ({ m with codes := (code, ⟨row.id, u.userId, uri, ws, challenge, method, some nonce, d.now + 86400 * 1000000⟩) ::
        m.codes }, .ok ()) := by
  have hm : method.length ≤ 16 := by
    rcases hv.methodKnown with rfl | rfl <;> decide
  have hcl' : (m.findClient row.client.clientId).isSome = true := by
    show (m.findClient row.id).isSome = true
    rw [hcl]; rfl
  show (match textList (ws.map .str) with
    | none => (m, dbError)
    | some scopes =>
      if code.length ≤ 64 ∧ challenge.length ≤ 128 ∧ method.length ≤ 16 ∧ nonce.length ≤ 256 ∧
          Dict.get m.codes code = none ∧ (m.findClient row.client.clientId).isSome ∧ (m.findUser u.userId).isSome then
        ({ m with codes := (code, ⟨row.client.clientId, u.userId, uri, scopes, challenge, method, some nonce,
            d.now + 86400 * 1000000⟩) :: m.codes }, .ok ())
      else (m, dbError)) = _
  rw [textList_strs]
  exact if_pos ⟨hc, hv.challengeMax, hm, hn, hf, hcl', hus⟩

/-- Whatever else is in the database, if the adapter reports success it has stored the parameters. -/
theorem saveCode_stored {row : ClientRow} {u : User} {uri challenge method nonce : PyStr} {ws : List PyStr} {m m' : Store}
    {d : Draw} {code : PyStr} {data : Dict PyStr PyStr}
    (h : saveCode m d code (validParams data uri challenge method nonce ws) row.client u = (m', .ok ())) :
    StoredCode m' row u uri challenge method nonce ws code d.now := by
  have h : (match textList (ws.map .str) with
    | none => (m, dbError)
    | some scopes =>
      if code.length ≤ 64 ∧ challenge.length ≤ 128 ∧ method.length ≤ 16 ∧ nonce.length ≤ 256 ∧
          Dict.get m.codes code = none ∧ (m.findClient row.client.clientId).isSome ∧ (m.findUser u.userId).isSome then
        ({ m with codes := (code, ⟨row.client.clientId, u.userId, uri, scopes, challenge, method, some nonce,
            d.now + 86400 * 1000000⟩) :: m.codes }, .ok ())
      else (m, dbError)) = (m', .ok ()) := h
  rw [textList_strs] at h
  dsimp only at h
  split at h
  · cases h
    exact ⟨by simp [Dict.get]; rfl⟩
  · cases congrArg Prod.snd h

theorem encode_valid {env : OEnv} {uri code : PyStr} {st : Option PyStr} (hc : ∀ c ∈ code, c < 128)
    (hst : ∀ s, st = some s → Encodable s) :
    ∃ url, urlencodeVals env uri [(py! "code", .str code), (py! "state", optVal st)] = .ok url := by
  unfold urlencodeVals
  rw [if_neg (by simp [Dict.mem, Dict.get])]
  obtain ⟨u, hu⟩ := C05_urlencode_total uri (strParams env [(py! "code", .str code), (py! "state", optVal st)]) (by
    intro k v hkv
    unfold strParams at hkv
    obtain ⟨⟨k', v'⟩, hm, heq⟩ := List.mem_map.mp hkv
    cases heq
    obtain ⟨hm, hn⟩ := List.mem_filter.mp hm
    simp only [List.mem_cons, List.not_mem_nil, or_false, Prod.mk.injEq] at hm
    rcases hm with ⟨rfl, rfl⟩ | ⟨rfl, rfl⟩
    · exact ⟨encodable_ascii (s := py! "code") (by decide), encodable_ascii hc⟩
    · refine ⟨encodable_ascii (s := py! "state") (by decide), ?_⟩
      cases st with
      | none => cases hn
      | some s => exact hst s rfl)
  unfold strParams at hu
  rw [hu]
  exact ⟨u, rfl⟩

theorem wpp_exAuthorize {env : OEnv} {row : ClientRow} {u : User} {req : Request} {uri challenge method nonce : PyStr}
    {ws : List PyStr} (hv : ValidAuth row u req uri challenge method ws)
    (hn : Dict.get req.data (py! "nonce") = some nonce) (hn1 : nonce ≠ []) (hn2 : nonce.length ≤ 256) (h : List Ev) :
    WpP (fun _ ev => Undisturbed env row u ev) (fun _ _ => True)
      (fun h url => ∃ code data, (⟨.saveCode code data row.client u, .ok ()⟩ : Ev) ∈ h ∧
        (∀ d m m', exOp env d m (.saveCode code data row.client u) = (m', .ok ()) →
          StoredCode m' row u uri challenge method nonce ws code d.now) ∧
        (∃ l : List (Fin 64), l.length = 64 ∧ secretToken l = .ok code) ∧
        urlencodeVals env uri [(py! "code", .str code), (py! "state", optVal (Dict.get req.data (py! "state")))] = .ok url)
      (fun _ _ => False) h
      (codeAuthorize env exProvider.cfg (exHooks env) (Dict.del req.data (py! "response_type")) row.client u) := by
  obtain ⟨text, htext, htne, hw⟩ := hv.scope
  rw [words_iff] at hw
  have hdel : ∀ k, k ≠ py! "response_type" →
      Dict.get (Dict.del req.data (py! "response_type")) k = Dict.get req.data k := fun k hk => Dict.get_del _ hk
  have hp : authorizationParams (Dict.del req.data (py! "response_type")) =
      .ok [(py! "code_challenge", .str challenge), (py! "code_challenge_method", .str method),
        (py! "redirect_uri", .str uri), (py! "scopes", strList ws),
        (py! "state", optVal (Dict.get req.data (py! "state")))] := by
    have hm : method ∈ challengeMethods := by
      rcases hv.methodKnown with rfl | rfl <;> decide
    have hcne : challenge ≠ [] := by
      rintro rfl
      exact absurd hv.challengeMin (by decide)
    have h1 : Dict.get (Dict.del req.data (py! "response_type")) (py! "code_challenge") = some challenge :=
      (hdel _ (by decide)).trans hv.challenges
    have h2 : Dict.get (Dict.del req.data (py! "response_type")) (py! "code_challenge_method") = some method :=
      (hdel _ (by decide)).trans hv.transforms
    have h3 : Dict.get (Dict.del req.data (py! "response_type")) (py! "scope") = some text := (hdel _ (by decide)).trans htext
    have h4 : Dict.get (Dict.del req.data (py! "response_type")) (py! "redirect_uri") = some uri :=
      (hdel _ (by decide)).trans hv.returns
    have h5 : Dict.get (Dict.del req.data (py! "response_type")) (py! "state") = Dict.get req.data (py! "state") :=
      hdel _ (by decide)
    have hlen : ¬ (challenge.length < 43 ∨ challenge.length > 128) := by
      have := hv.challengeMin
      have := hv.challengeMax
      omega
    unfold authorizationParams
    simp only [blank_of_get h1 hcne, h1, h2, blank_of_get h3 htne, h3, h4, h5, Option.getD_some, hlen, hm, hw, if_false,
      not_true_eq_false, Bool.false_eq_true]
  have hnd : Dict.get (Dict.del req.data (py! "response_type")) (py! "nonce") = some nonce := (hdel _ (by decide)).trans hn
  unfold codeAuthorize validateAuthorizationRequest
  rw [wpp_bind, wpp_bind, wpp_lift, hp]
  show WpP _ _ _ _ _ (runHooks _ [fun _ => oidcAuthorizationRequest _])
  unfold runHooks oidcAuthorizationRequest
  rw [blank_of_get hnd hn1, hnd, wpp_bind]
  show WpP _ _ _ _ h (P.bind (P.lift (item (validParams req.data uri challenge method nonce ws) (py! "scopes"))) _)
  rw [wpp_bind, wpp_lift]
  show WpP _ _ _ _ h (P.bind (P.lift (validateRequestedScopes env exProvider.cfg (strList ws) row.client _)) _)
  have hsc : ∀ st, validateRequestedScopes env exProvider.cfg (strList ws) row.client st = .ok () := by
    intro st
    have hal : row.client.allowedScopes (strList ws) = .ok (row.scopes.filter (fun s => decide (s ∈ ws))) := by
      show liftRes (filterIn (strList ws) row.scopes) = _
      rw [filterIn_strList]
      rfl
    unfold validateRequestedScopes
    rw [if_neg (by simp [strList, Val.isNone]), hal]
    have hun : unsupportedScope exProvider.cfg (ws.map .str) = none := by
      unfold unsupportedScope
      rw [List.find?_eq_none]
      intro v hv'
      obtain ⟨s, hs, rfl⟩ := List.mem_map.mp hv'
      simp only [Bool.not_eq_true, Bool.not_eq_false']
      exact inList_str.mpr (hv.scopes s hs).1
    have hsub : subsetVals (ws.map .str) (row.scopes.filter (fun s => decide (s ∈ ws))) = true := by
      unfold subsetVals
      rw [List.all_eq_true]
      intro v hv'
      obtain ⟨s, hs, rfl⟩ := List.mem_map.mp hv'
      exact inList_str.mpr (List.mem_filter.mpr ⟨(hv.scopes s hs).2, decide_eq_true hs⟩)
    simp only [strList, iterVal, liftRes, hun, hsub, if_true]
  rw [wpp_bind, wpp_lift, hsc]
  show WpP _ _ _ _ h (P.bind (P.call .choices64) _)
  rw [wpp_bind, wpp_call]
  refine ⟨trivial, ?_, ?_⟩
  · intro choices _
    have hne : choices.val ≠ [] := by
      intro h0
      have := choices.property
      rw [h0] at this
      cases this
    obtain ⟨code, hcode, hlen, hchars, -⟩ := C10_secret_token choices.val hne
    have hl64 : code.length ≤ 64 := by
      rw [hlen, choices.property]
      exact Nat.le_refl _
    rw [hcode, wpp_bind, wpp_lift]
    show WpP _ _ _ _ _ (P.bind (P.call (.saveCode code (validParams req.data uri challenge method nonce ws) row.client u)) _)
    rw [wpp_bind]
    refine wpp_call.mpr ⟨trivial, ?_, ?_⟩
    · rintro ⟨⟩ ⟨d, m, m', hop, hcl, hus, hfresh⟩
      show WpP _ _ _ _ _ (P.bind (runHooks [(py! "code", .str code), (py! "state", optVal (Dict.get req.data (py! "state")))]
        []) _)
      rw [wpp_bind]
      show WpP _ _ _ _ _ (P.bind (P.lift (item (validParams req.data uri challenge method nonce ws) (py! "redirect_uri"))) _)
      rw [wpp_bind, wpp_lift]
      show WpP _ _ _ _ _ (P.lift (urlencodeVals env uri _))
      obtain ⟨url, hurl⟩ := encode_valid (env := env) (uri := uri) (code := code) (st := Dict.get req.data (py! "state"))
        (fun c hc => by have := hchars c hc; omega) (fun s hs => hv.encodable _ _ hs)
      rw [wpp_lift, hurl]
      exact ⟨code, _, List.mem_append_right _ List.mem_cons_self, fun _ _ _ hop => saveCode_stored (data := req.data) hop,
        ⟨_, choices.property, hcode⟩, hurl⟩
    · rintro e ⟨d, m, m', hop, hcl, hus, hfresh⟩
      have hsave := saveCode_valid (data := req.data) (d := d) (u := u) hv hn2 hl64 hcl hus (hfresh _ _ _ _ rfl)
      have h2 : (saveCode m d code (validParams req.data uri challenge method nonce ws) row.client u).2 = .error e :=
        congrArg Prod.snd hop
      rw [hsave] at h2
      cases h2
  · rintro e ⟨d, m, m', hop, -⟩
    cases congrArg Prod.snd hop

/-- C63, what holds: every valid request with a nonce that fits into its column, if nothing goes wrong in the database, stores a
code with exactly the parameters of the request and redirects to the client, which reads this code and its state from the query
(if its redirect URI has neither query nor fragment, see C48). What is missing are requests without a nonce (`C63_refuted`). -/
theorem C63_partial (env : OEnv) (row : ClientRow) (u : User) (req : Request) (uri challenge method nonce : PyStr)
    (ws : List PyStr) (hv : ValidAuth row u req uri challenge method ws)
    (hn : Dict.get req.data (py! "nonce") = some nonce) (hn1 : nonce ≠ []) (hn2 : nonce.length ≤ 256)
    (tr : List Ev) (out : ORes Response) (h : Exec (exProvider.authorize env (exHooks env) req) tr out)
    (hu : ∀ ev ∈ tr, Undisturbed env row u ev) :
    ∃ r code data loc, out = .ok r ∧ (⟨.saveCode code data row.client u, .ok ()⟩ : Ev) ∈ tr ∧
      (∀ d m m', exOp env d m (.saveCode code data row.client u) = (m', .ok ()) → Dict.get m'.codes code =
        some ⟨row.id, u.userId, uri, ws, challenge, method, some nonce, d.now + 86400 * 1000000⟩) ∧
      r.status = 303 ∧ location r = some loc ∧
      (63 ∉ uri → 35 ∉ uri → urldecode (urlQuery loc) =
        visible [(py! "code", some code), (py! "state", Dict.get req.data (py! "state"))]) := by
  have hw : WpP (fun _ ev => Undisturbed env row u ev) (fun _ _ => True)
      (fun h r => ∃ code data loc, (⟨.saveCode code data row.client u, .ok ()⟩ : Ev) ∈ h ∧
        (∀ d m m', exOp env d m (.saveCode code data row.client u) = (m', .ok ()) → Dict.get m'.codes code =
          some ⟨row.id, u.userId, uri, ws, challenge, method, some nonce, d.now + 86400 * 1000000⟩) ∧
        r.status = 303 ∧ location r = some loc ∧
        (63 ∉ uri → 35 ∉ uri → urldecode (urlQuery loc) =
          visible [(py! "code", some code), (py! "state", Dict.get req.data (py! "state"))]))
      (fun _ _ => False) [] (exProvider.authorize env (exHooks env) req) := by
    unfold Provider.authorize authorizeEndpoint
    rw [wpp_catch]
    refine wpp_mono (E := fun _ _ => False) ?_ (fun _ _ h => h) (fun _ _ h => h) (fun _ _ h => h.elim)
    unfold authorizeBody
    have h1 : validateRequest req.data = .ok () := by
      have hne : req.data ≠ [] := by
        intro h0
        have := hv.names
        rw [h0] at this
        cases this
      unfold validateRequest
      simp only [hne, blank_of_get hv.returns hv.uriNonempty, blank_of_get hv.names hv.clientId,
        blank_of_get hv.responseType (by decide), if_false, Bool.false_eq_true]
    rw [wpp_bind, h1, wpp_lift]
    show WpP _ _ _ _ _ _
    rw [hv.user]
    dsimp only
    have hp : ∀ d k v, Dict.get d k = some v → param d k = .ok v := by
      intro d k v hk
      simp only [param, Dict.getItem, hk, liftRes]
    have hdel : ∀ k, k ≠ py! "response_type" →
        Dict.get (Dict.del req.data (py! "response_type")) k = Dict.get req.data k := fun k hk => Dict.get_del _ hk
    rw [wpp_bind, hp _ _ _ hv.responseType, wpp_lift]
    show WpP _ _ _ _ _ _
    rw [wpp_bind, wpp_lift]
    show WpP _ _ _ _ _ _
    rw [wpp_bind, hp _ _ _ ((hdel _ (by decide)).trans hv.names), wpp_lift]
    show WpP _ _ _ _ _ _
    rw [wpp_bind, hp _ _ _ ((hdel _ (by decide)).trans hv.returns), wpp_lift]
    show WpP _ _ _ _ _ _
    unfold validateClient
    rw [wpp_bind, wpp_bind]
    refine wpp_call.mpr ⟨trivial, ?_, ?_⟩
    · rintro found ⟨d, m, m', hop, hcl, -⟩
      have hf : found = some row.client := by
        have : (m.findClient row.id).map ClientRow.client = found := Except.ok.inj (congrArg Prod.snd hop)
        rw [← this, hcl]
        rfl
      subst hf
      dsimp only
      rw [if_neg (not_not_intro (show uri ∈ row.client.redirectUris from hv.uriRegistered)),
        if_neg (not_not_intro (show (grantOf env exProvider.cfg (exHooks env) .authorizationCode).responseType.getD [] ∈
          row.client.responseTypes from hv.registered)), wpp_ret, wpp_bind]
      refine wpp_mono (wpp_exAuthorize hv hn hn1 hn2 _) (fun _ _ h => h) ?_ (fun _ _ h => h)
      rintro h2 url ⟨code, data, e1, e3, -, e4⟩
      have hue := urlencodeVals_ok e4
      obtain ⟨r, hr⟩ := redirectResponse_ok (encodable_urlencode (hv.encodable _ _ hv.returns) hue) []
      rw [hr, wpp_lift]
      have hst : r.status = 303 ∧ ∃ loc, location r = some loc := by
        unfold redirectResponse at hr
        split at hr
        · cases hr
        · cases hr
          exact ⟨rfl, _, by unfold location; rw [get_setItem_location]⟩
      obtain ⟨hs, loc, hloc⟩ := hst
      refine ⟨code, data, loc, e1, fun d m m' hop => (e3 d m m' hop).stored, hs, hloc, ?_⟩
      intro n1 n2
      obtain ⟨loc', hl, hdec⟩ := redirect_query (ok_strParams env (by simp [Dict.Ok, Dict.keys])) hue hr n1 n2
      rw [hloc] at hl
      cases hl
      rw [hdec]
      cases Dict.get req.data (py! "state") <;> rfl
    · rintro e ⟨d, m, m', hop, -⟩
      cases congrArg Prod.snd hop
  have ha : Answers (fun _ ev => Undisturbed env row u ev) [] tr := by
    rintro pre ev post rfl
    exact hu ev (by simp)
  cases out with
  | ok r =>
    obtain ⟨code, data, loc, g⟩ := wpp_exec_ok h hw ha
    exact ⟨r, code, data, loc, rfl, g⟩
  | error e => exact (wpp_exec_error h hw ha).elim

/-- The example adapter as long as the database `s` does not change. -/
def exOracle (s : Store) (_ : List Ev) (o : Op) : ORes o.Ans := (exOp toyEnv (exDraw 0) s o).2

/-- An authorization request to the example application, without other requests. -/
def exAuthorizeRun (more : Dict PyStr PyStr) : List Ev × ORes Response :=
  Prog.run (exOracle exStore) [] (exProvider.authorize toyEnv (exHooks toyEnv) (exAuthorize more))

theorem exAuthorizeRun_undisturbed (more : Dict PyStr PyStr) :
    ∀ ev ∈ (exAuthorizeRun more).1, Undisturbed toyEnv exClient exUser.user ev := by
  intro ev hev
  rcases run_answers _ _ _ ev hev with h | ⟨h', ha⟩
  · cases h
  · refine ⟨exDraw 0, exStore, (exOp toyEnv (exDraw 0) exStore ev.op).1, ?_, rfl, rfl, fun _ _ _ _ _ => rfl⟩
    rw [ha]
    rfl

/-- The text has no lone surrogates. -/
def plainText (s : PyStr) : Bool := s.all fun c => decide (c < 128)

theorem valid_exAuthorize (more : Dict PyStr PyStr)
    (hall : (exAuthorize more).data.all (fun kv => plainText kv.2) = true)
    (hget : [py! "response_type", py! "client_id", py! "redirect_uri", py! "code_challenge", py! "code_challenge_method",
        py! "scope"].map (Dict.get (exAuthorize more).data) =
      [some (py! "code"), some (py! "c1"), some (py! "https://c/cb"), some toyVerifier, some (py! "plain"),
        some (py! "openid")]) :
    ValidAuth exClient exUser.user (exAuthorize more) (py! "https://c/cb") toyVerifier (py! "plain") [py! "openid"] := by
  simp only [List.map_cons, List.map_nil, List.cons.injEq, and_true] at hget
  obtain ⟨g1, g2, g3, g4, g5, g6⟩ := hget
  refine ⟨rfl, g1, by decide, g2, by decide, g3, by decide, by decide, g4, by decide, by decide, g5, Or.inl rfl,
    ⟨_, g6, by decide, words_iff.mpr (by decide +kernel)⟩, by decide, ?_⟩
  intro k v hk
  have := List.all_eq_true.mp hall _ (Dict.mem_of_get hk)
  refine encodable_ascii ?_
  intro c hc
  exact of_decide_eq_true (List.all_eq_true.mp this c hc)

/-- C63 is false: a valid request without a nonce ends with a `KeyError` of the adapter, which the endpoint does not catch. -/
theorem C63_refuted : ¬ ∀ (env : OEnv) (row : ClientRow) (u : User) (req : Request) (uri challenge method : PyStr)
    (ws : List PyStr), ValidAuth row u req uri challenge method ws → ∀ (tr : List Ev) (out : ORes Response),
      Exec (exProvider.authorize env (exHooks env) req) tr out → (∀ ev ∈ tr, Undisturbed env row u ev) →
      ∃ r, out = .ok r := by
  intro H
  have hr : (match (exAuthorizeRun []).2 with | .error (.py .keyErr) => true | _ => false) = true := by decide +kernel
  obtain ⟨r, h⟩ := H toyEnv exClient exUser.user (exAuthorize []) _ _ _ _
    (valid_exAuthorize [] (by decide +kernel) (by decide +kernel)) _ _ (exec_run _ _)
    (exAuthorizeRun_undisturbed [])
  rw [show (Prog.run (exOracle exStore) [] (exProvider.authorize toyEnv (exHooks toyEnv) (exAuthorize []))).2 =
    (exAuthorizeRun []).2 from rfl] at h
  rw [h] at hr
  cases hr

/-- The hypotheses of `C63_partial` can be met. -/
example : ∃ r, (exAuthorizeRun [(py! "nonce", py! "n")]).2 = .ok r ∧ r.status = 303 := by
  obtain ⟨r, code, data, loc, h1, -, -, h4, h5, h6⟩ := C63_partial toyEnv exClient exUser.user
    (exAuthorize [(py! "nonce", py! "n")]) _ _ _ (py! "n") _
    (valid_exAuthorize _ (by decide +kernel) (by decide +kernel)) (by decide +kernel) (by decide)
    (by decide) _ _ (exec_run _ _) (exAuthorizeRun_undisturbed _)
  exact ⟨r, h1, h4⟩

example : (match (exAuthorizeRun [(py! "nonce", py! "n")]).2 with
    | .ok r => decide (location r = some (py! "https://c/cb?code=" ++ toyDrawn ++ py! "&state=s"))
    | _ => false) = true := by decide +kernel

end Psion.Props
