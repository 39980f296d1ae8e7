import Verif.Example.WebAnswer
import Verif.Props.ToyWeb

/-!
# Property C74: the example application passes on what the library answers
-/

namespace Psion.Props

open Psion Spec Example

variable {env : OEnv} {table : Hooks} {emailOk : PyStr → Bool}

/-- What becomes of the end of an endpoint of the library. -/
def Ended (lib : ORes (Option Response)) (out : ORes Served) : Prop :=
  (∃ e, lib = .error e ∧ out = .error e) ∨ (lib = .ok none ∧ out = .error (.py .attrErr)) ∨
    ∃ r, lib = .ok (some r) ∧
      ((∃ reply, PassedOn r reply ∧ out = .ok ⟨reply, none⟩) ∨ (¬ SendableHeaders r ∧ ∃ e, out = .error (.py e)))

theorem ended_response (r : Response) : Ended (.ok (some r)) (liftRes ((createResponse (some r)).map (fun reply => ⟨reply, none⟩))) := by
  refine Or.inr (Or.inr ⟨r, rfl, ?_⟩)
  cases h : createResponse (some r) with
  | ok reply => exact Or.inl ⟨reply, createResponse_ok h, rfl⟩
  | error e => exact Or.inr ⟨createResponse_error h, e, rfl⟩

theorem createRequest_ok {req : WebRequest} (h : req.method = py! "GET" ∨ req.method = py! "POST") (hu : ¬ OneBracket req.url)
    (user : Option User) :
    ∃ r, createRequest req user = .ok r ∧ r.method = req.method ∧ r.query = urldecode (urlQuery req.url) ∧ r.body = some req.body ∧
      r.user = user := by
  unfold createRequest Request.init
  rw [if_pos (by rcases h with h | h <;> rw [h] <;> decide), if_neg (fun hr => hu (urlRefused_iff.mp hr))]
  exact ⟨_, rfl, rfl, rfl, rfl, rfl⟩

theorem createRequest_refused {req : WebRequest} (h : req.method = py! "GET" ∨ req.method = py! "POST") (hu : OneBracket req.url)
    (user : Option User) : createRequest req user = .error .valueErr := by
  unfold createRequest Request.init
  rw [if_pos (by rcases h with h | h <;> rw [h] <;> decide), if_pos (urlRefused_iff.mpr hu)]

/-- The views of the endpoints of the library. -/
theorem view_library {req : WebRequest} {user : Option User} {tr : List WEv} {out : ORes Served}
    (hroute : (req.route = .authorize ∧ req.method = py! "GET" ∧ user ≠ none) ∨
      ((req.route = .token ∨ req.route = .revoke) ∧ req.method = py! "POST")) (hurl : ¬ OneBracket req.url)
    (h : WExec (view env table emailOk req user) tr out) :
    (∀ ev ∈ tr, ∃ o, ev.op = .lib o) ∧ ∃ r lib, createRequest req user = .ok r ∧
      LibraryEnds env table req.route r (libOf tr) lib ∧ Ended lib out := by
  obtain ⟨r, hr, -⟩ := createRequest_ok (req := req)
    (by rcases hroute with ⟨-, h, -⟩ | ⟨-, h⟩ <;> simp [h]) hurl user
  unfold view at h
  rcases hroute with ⟨h1, h2, h3⟩ | ⟨h1 | h1, h2⟩
  · rw [h1] at h ⊢
    dsimp only at h
    rw [if_pos (by unfold isGet; rw [h2]; decide)] at h
    unfold authorizeGet at h
    cases user with
    | none => exact absurd rfl h3
    | some u =>
      dsimp only at h
      rw [hr] at h
      obtain ⟨h4, ⟨e, h5, rfl⟩ | ⟨x, h5, rfl⟩⟩ := wexec_endpoint (g := some) h
      · exact ⟨h4, r, _, hr, .notAuthorized _ _ _ h5, Or.inl ⟨e, rfl, rfl⟩⟩
      · exact ⟨h4, r, _, hr, .authorized _ _ _ h5, ended_response x⟩
  · rw [h1] at h ⊢
    dsimp only at h
    rw [if_pos (by unfold isPost; rw [h2]; decide)] at h
    unfold tokenPost at h
    rw [hr] at h
    obtain ⟨h4, ⟨e, h5, rfl⟩ | ⟨x, h5, rfl⟩⟩ := wexec_endpoint (g := some) h
    · exact ⟨h4, r, _, hr, .noToken _ _ _ h5, Or.inl ⟨e, rfl, rfl⟩⟩
    · exact ⟨h4, r, _, hr, .token _ _ _ h5, ended_response x⟩
  · rw [h1] at h ⊢
    dsimp only at h
    rw [if_pos (by unfold isPost; rw [h2]; decide)] at h
    unfold revokePost at h
    rw [hr] at h
    obtain ⟨h4, ⟨e, h5, rfl⟩ | ⟨x, h5, rfl⟩⟩ := wexec_endpoint (g := fun x => x) h
    · exact ⟨h4, r, _, hr, .revoke _ _ _ h5, Or.inl ⟨e, rfl, rfl⟩⟩
    · refine ⟨h4, r, _, hr, .revoke _ _ _ h5, ?_⟩
      cases x with
      | none => exact Or.inr (Or.inl ⟨rfl, rfl⟩)
      | some x => exact ended_response x

/-- They do nothing for a host that is refused. -/
theorem view_refused {req : WebRequest} {user : Option User} {tr : List WEv} {out : ORes Served}
    (hroute : (req.route = .authorize ∧ req.method = py! "GET" ∧ user ≠ none) ∨
      ((req.route = .token ∨ req.route = .revoke) ∧ req.method = py! "POST")) (hurl : OneBracket req.url)
    (h : WExec (view env table emailOk req user) tr out) : tr = [] ∧ out = .error (.py .valueErr) := by
  have hr := createRequest_refused (req := req) (by rcases hroute with ⟨-, h, -⟩ | ⟨-, h⟩ <;> simp [h]) hurl user
  unfold view at h
  rcases hroute with ⟨h1, h2, h3⟩ | ⟨h1 | h1, h2⟩
  · rw [h1] at h
    dsimp only at h
    rw [if_pos (by unfold isGet; rw [h2]; decide)] at h
    unfold authorizeGet at h
    cases user with
    | none => exact absurd rfl h3
    | some u =>
      dsimp only at h
      rw [hr] at h
      exact wexec_done h
  · rw [h1] at h
    dsimp only at h
    rw [if_pos (by unfold isPost; rw [h2]; decide)] at h
    unfold tokenPost at h
    rw [hr] at h
    exact wexec_done h
  · rw [h1] at h
    dsimp only at h
    rw [if_pos (by unfold isPost; rw [h2]; decide)] at h
    unfold revokePost at h
    rw [hr] at h
    exact wexec_done h

theorem headerDict_ok (l : List (PyStr × PyStr)) : Dict.Ok (headerDict l) := by
  induction l with
  | nil => simp [headerDict, Dict.Ok, Dict.keys]
  | cons x l ih =>
    obtain ⟨k, v⟩ := x
    unfold headerDict
    have h := Dict.ok_filter ih (fun kv => decide (kv.1 ≠ k))
    simp only [Dict.Ok, Dict.keys, List.map_cons, List.nodup_cons] at h ⊢
    refine ⟨fun hm => ?_, h⟩
    obtain ⟨y, hy, hk⟩ := List.mem_map.mp hm
    exact of_decide_eq_true (List.mem_filter.mp hy).2 hk

theorem headerDict_get (l : List (PyStr × PyStr)) (k : PyStr) :
    Dict.get (headerDict l) k = (l.find? (fun kv => decide (kv.1 = k))).map Prod.snd := by
  induction l with
  | nil => rfl
  | cons x l ih =>
    obtain ⟨k', v⟩ := x
    unfold headerDict
    rw [Dict.get_cons, List.find?_cons]
    by_cases hk : k' = k
    · subst hk
      simp
    · simp only [hk, if_false, decide_false]
      rw [Dict.get_filter (headerDict_ok l), ih]
      cases hf : List.find? (fun kv => decide (kv.1 = k)) l with
      | none => rfl
      | some y =>
        have := List.find?_some hf
        have := of_decide_eq_true this
        simp [Option.filter, Ne.symm hk]

/-- The request that the library sees. Names of headers arrive in lower case. -/
theorem createRequest_faithful {req : WebRequest} {user : Option User} {r : Request} (h : createRequest req user = .ok r)
    (hl : ∀ kv ∈ req.headers, asciiLower kv.1 = kv.1) : ArrivesAs req user r := by
  cases request_init h
  refine ⟨rfl, rfl, rfl, rfl, fun k => ?_⟩
  have hsub : ∀ l : List (PyStr × PyStr), (∀ kv ∈ l, asciiLower kv.1 = kv.1) → ∀ kv ∈ headerDict l, asciiLower kv.1 = kv.1 := by
    intro l
    induction l with
    | nil => intro _ kv h; cases h
    | cons x l ih =>
      obtain ⟨k, v⟩ := x
      intro H kv hkv
      unfold headerDict at hkv
      rcases List.mem_cons.mp hkv with rfl | hkv
      · exact H _ List.mem_cons_self
      · exact ih (fun kv h => H kv (List.mem_cons_of_mem _ h)) kv (List.mem_filter.mp hkv).1
  have hid : (headerDict req.headers).map (fun kv => (asciiLower kv.1, kv.2)) = headerDict req.headers := by
    conv => rhs; rw [← List.map_id (headerDict req.headers)]
    refine List.map_congr_left fun kv hkv => ?_
    rw [hsub _ hl kv hkv]
    rfl
  dsimp only
  rw [hid, Dict.ofPairs_ok (headerDict_ok _), headerDict_get]

/-- C74, as far as it holds. A request to the token or revocation endpoint (`POST`), or to the authorization endpoint (`GET`) by a
user who is logged in, ends in one of these ways:
the library is called with the request as it arrived and the user that was recognised, and its response is sent as it is, or its
exception escapes, or its response is `None` and an `AttributeError` escapes, or its headers cannot be sent;
or its host has one bracket only, and the `ValueError` of the library escapes before anything is done;
or the query for the session has failed; or the session has no user any more, and the framework answers.
Missing is that there is always an answer (`C74_refuted`, `C74_refuted_head`, `C74_refuted_host`). -/
theorem C74_partial (req : WebRequest) (tr : List WEv) (out : ORes Served)
    (hroute : (req.route = .authorize ∧ req.method = py! "GET" ∧ ∃ sid uid x, (⟨.session sid uid, .ok (some x)⟩ : WEv) ∈ tr) ∨
      ((req.route = .token ∨ req.route = .revoke) ∧ req.method = py! "POST"))
    (hl : ∀ kv ∈ req.headers, asciiLower kv.1 = kv.1)
    (h : WExec (app env table emailOk req) tr out) :
    (∃ user r lib, UserOf req tr user ∧ ArrivesAs req user r ∧ LibraryEnds env table req.route r (libOf tr) lib ∧ Ended lib out) ∨
      (OneBracket req.url ∧ libOf tr = [] ∧ out = .error (.py .valueErr)) ∨
      (∃ c e, req.cookie = some c ∧ tr = [⟨.session c.sessionId c.userId, .error e⟩] ∧ out = .error e) ∨
      (∃ c, req.cookie = some c ∧ tr = [⟨.session c.sessionId c.userId, .ok (some none)⟩] ∧ out = .ok ⟨.page .badRequest, none⟩) := by
  have anon : ∀ {t : List WEv}, tr = t ∨ (∃ c : Cookie, tr = ⟨.session c.sessionId c.userId, .ok none⟩ :: t) →
      WExec (view env table emailOk req none) t out →
      (∃ user r lib, UserOf req tr user ∧ ArrivesAs req user r ∧ LibraryEnds env table req.route r (libOf tr) lib ∧ Ended lib out) ∨
        OneBracket req.url ∧ libOf tr = [] ∧ out = .error (.py .valueErr) := by
    intro t ht hv
    rcases hroute with ⟨h1, h2, sid, uid, x, h3⟩ | h1
    · exfalso
      have htr : t = [] := by
        unfold view at hv
        rw [h1] at hv
        dsimp only at hv
        rw [if_pos (by unfold isGet; rw [h2]; decide)] at hv
        unfold authorizeGet at hv
        dsimp only at hv
        split at hv <;> exact (wexec_done hv).1
      subst htr
      rcases ht with rfl | ⟨c, rfl⟩
      · cases h3
      · cases (List.mem_singleton.mp h3)
    · have hlib : libOf tr = libOf t := by
        rcases ht with rfl | ⟨c, rfl⟩ <;> rfl
      by_cases hurl : OneBracket req.url
      · obtain ⟨rfl, rfl⟩ := view_refused (Or.inr h1) hurl hv
        exact Or.inr ⟨hurl, hlib, rfl⟩
      obtain ⟨h4, r, lib, h5, h6, h7⟩ := view_library (Or.inr h1) hurl hv
      refine Or.inl ⟨none, r, lib, ?_, createRequest_faithful h5 hl, hlib ▸ h6, h7⟩
      intro sid uid x hm
      have hm : (⟨.session sid uid, .ok (some x)⟩ : WEv) ∈ t := by
        rcases ht with rfl | ⟨c, rfl⟩
        · exact hm
        · rcases List.mem_cons.mp hm with hm | hm
          · cases hm
          · exact hm
      obtain ⟨o, ho⟩ := h4 _ hm
      cases ho
  unfold app at h
  split at h
  · rcases anon (Or.inl rfl) h with h | h
    · exact Or.inl h
    · exact Or.inr (Or.inl h)
  · rename_i c hc
    cases h with
    | op _ _ x t _ h =>
      cases x with
      | error e =>
        obtain ⟨rfl, rfl⟩ := wexec_done h
        exact Or.inr (Or.inr (Or.inl ⟨c, e, hc, rfl, rfl⟩))
      | ok x =>
        cases x with
        | none =>
          rcases anon (Or.inr ⟨c, rfl⟩) h with h | h
          · exact Or.inl h
          · exact Or.inr (Or.inl h)
        | some x =>
          cases x with
          | none =>
            obtain ⟨rfl, rfl⟩ := wexec_done h
            exact Or.inr (Or.inr (Or.inr ⟨c, hc, rfl, rfl⟩))
          | some u =>
            have hroute' : (req.route = .authorize ∧ req.method = py! "GET" ∧ some u ≠ none) ∨
                ((req.route = .token ∨ req.route = .revoke) ∧ req.method = py! "POST") := by
              rcases hroute with ⟨h1, h2, -⟩ | h1
              · exact Or.inl ⟨h1, h2, nofun⟩
              · exact Or.inr h1
            by_cases hurl : OneBracket req.url
            · obtain ⟨rfl, rfl⟩ := view_refused hroute' hurl h
              exact Or.inr (Or.inl ⟨hurl, rfl, rfl⟩)
            obtain ⟨-, r, lib, h5, h6, h7⟩ := view_library hroute' hurl h
            exact Or.inl ⟨some u, r, lib, ⟨c, hc, List.mem_cons_self⟩, createRequest_faithful h5 hl, h6, h7⟩

/-! ## Counterexamples -/

/-- The error of the request, if it is finished with one. -/
def webEscapes (e : Exc) : WProg (ORes Served) → Bool
  | .done (.error (.py x)) => decide (x = e)
  | _ => false

theorem webEscapes_exec {reqs : Nat → WebRequest} {l : List (Nat × Draw)} {i : Nat} {e : Exc}
    (h : webEscapes e ((webSim reqs l).2.2 i) = true) :
    WExec (app toyEnv (exHooks toyEnv) (fun _ => true) (reqs i)) (ofWeb i (webSim reqs l).1) (.error (.py e)) := by
  unfold webEscapes at h
  split at h
  · rename_i hd
    cases of_decide_eq_true h
    exact wsim_outcome (ps := fun i => app toyEnv (exHooks toyEnv) (fun _ => true) (reqs i)) (by
      show woutcome ((webSim reqs l).2.2 i) = _
      rw [hd]; rfl)
  · cases h

/-- A revocation request without `token`. -/
def webRevoke : WebRequest :=
  { webGet .revoke (py! "/connect/revoke") [] none with
    method := py! "POST"
    headers := [(py! "authorization", py! "Basic YzE6czM=")]
    body := by! "token_type_hint=refresh_token" }

/-- C74 is violated: a revocation request of an authenticated client without `token` ends with an `AttributeError`, although the
database works. -/
theorem C74_refuted : ∃ h w', WHistory toyEnv (exHooks toyEnv) (fun _ => true) (fun _ => webRevoke) h ∧
    WRun toyEnv ⟨exStore, []⟩ h w' ∧
    WExec (app toyEnv (exHooks toyEnv) (fun _ => true) webRevoke) (ofWeb 0 h) (.error (.py .attrErr)) ∧
    ∀ ev ∈ ofWeb 0 h, ∀ e : OExc, ev.ans ≠ .error e := by
  refine ⟨_, _, webSim_history (fun _ => webRevoke) (exTurn 0 4 0), webSim_run _ _,
    webEscapes_exec (reqs := fun _ => webRevoke) (l := exTurn 0 4 0) (i := 0) (by decide +kernel), ?_⟩
  have hall : (ofWeb 0 (webSim (fun _ => webRevoke) (exTurn 0 4 0)).1).all
      (fun ev => match ev.ans with | .ok _ => true | .error _ => false) = true := by decide +kernel
  intro ev hev e he
  have := List.all_eq_true.mp hall ev hev
  rw [he] at this
  cases this

/-- A login, and a `HEAD` request to the authorization endpoint. -/
def webHead : Nat → WebRequest
  | 0 => webLogin [] (py! "correct horse")
  | _ => { webAuthorize with method := py! "HEAD" }

/-- C74 is violated: a `HEAD` request to the authorization endpoint by a user who is logged in ends with a `RuntimeError`. The
framework takes it for a `GET` request, the library does not accept it. -/
theorem C74_refuted_head : ∃ h w', WHistory toyEnv (exHooks toyEnv) (fun _ => true) webHead h ∧
    WRun toyEnv ⟨exStore, []⟩ h w' ∧
    WExec (app toyEnv (exHooks toyEnv) (fun _ => true) (webHead 1)) (ofWeb 1 h) (.error (.py .runtimeErr)) :=
  ⟨_, _, webSim_history webHead (exTurn 0 4 2 ++ exTurn 1 4 0), webSim_run _ _, webEscapes_exec (by decide +kernel)⟩

/-- A token request with the host `[`. -/
def webBracket : WebRequest := { webExchange with url := py! "http://[/connect/token" }

/-- C74 is violated: a request to the token endpoint with the header `Host: [` ends with a `ValueError`. -/
theorem C74_refuted_host : OneBracket webBracket.url ∧
    WExec (app toyEnv (exHooks toyEnv) (fun _ => true) webBracket) (ofWeb 0 (webSim (fun _ => webBracket) []).1) (.error (.py .valueErr)) ∧
    (webSim (fun _ => webBracket) []).1 = [] :=
  ⟨urlRefused_iff.mp (by decide +kernel), webEscapes_exec (reqs := fun _ => webBracket) (l := []) (i := 0) (by decide +kernel), rfl⟩

/-- The reply of a request that is finished. -/
def webReply : WProg (ORes Served) → Option Reply
  | .done (.ok sv) => some sv.reply
  | _ => none

/-- The same request with a token is answered, with the body `null` and its length. -/
example : webReply ((webSim (fun _ => { webRevoke with body := by! "token=abc" }) (exTurn 0 4 0)).2.2 0) =
    some (.response 200 [(py! "content-type", py! "application/json"), (py! "content-length", py! "4")] (by! "null")) := by
  decide +kernel

/-- The authorization of the logged-in user, and the exchange of the code. -/
example : webStatus ((webSim webReqs webStory).2.2 1) = some 303 ∧ webStatus ((webSim webReqs webStory).2.2 3) = some 200 := by
  decide +kernel

end Psion.Props
