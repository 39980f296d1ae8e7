import Verif.OAuth.TokenLemmas
import Verif.OAuth.AuthorizeLemmas
import Verif.Spec.Work

/-!
# What a request does to the stored codes and tokens: lemmas
-/

namespace Psion

open Spec

theorem storeOps_append (a b : List Ev) : storeOps (a ++ b) = storeOps a ++ storeOps b := by
  simp [storeOps]

theorem storeOps_quiet {tr : List Ev} (h : Quiet tr) : storeOps tr = [] := by
  unfold storeOps
  rw [List.filter_eq_nil_iff]
  intro o ho
  obtain ⟨ev, hev, rfl⟩ := List.mem_map.mp ho
  simp [h ev hev]

/-- The operations were performed in an order that `W` allows. -/
def InOrder (W : List Op → Prop) (h : List Ev) (o : Op) : Prop :=
  touchesStore o = true → ∃ ops, W ops ∧ storeOps h ++ [o] <+: ops

/-- A coroutine all of whose operations are in order has performed the beginning of an allowed sequence. -/
theorem work_of_inOrder {W : List Op → Prop} (h0 : W []) {tr : List Ev}
    (h : ∀ pre ev post, tr = pre ++ ev :: post → InOrder W pre ev.op) : ∃ ops, W ops ∧ storeOps tr <+: ops := by
  have main : ∀ (rest : List Ev) (done : List Ev), tr = done ++ rest → (∃ ops, W ops ∧ storeOps done <+: ops) →
      ∃ ops, W ops ∧ storeOps tr <+: ops := by
    intro rest
    induction rest with
    | nil => intro done hd hx; rw [hd, List.append_nil]; exact hx
    | cons ev rest ih =>
      intro done hd hx
      refine ih (done ++ [ev]) (by simp [hd]) ?_
      rw [storeOps_append]
      cases ht : touchesStore ev.op with
      | true =>
        have he : storeOps [ev] = [ev.op] := by simp [storeOps, ht]
        rw [he]
        exact h done ev rest hd ht
      | false =>
        have he : storeOps [ev] = [] := by simp [storeOps, ht]
        rw [he, List.append_nil]
        exact hx
  exact main tr [] rfl ⟨[], h0, List.prefix_rfl⟩

theorem inOrder_quiet {W : List Op → Prop} (h : List Ev) (o : Op) (ho : touchesStore o = false) : InOrder W h o := by
  intro ht
  rw [ho] at ht
  cases ht

theorem storeOps_op (h : List Ev) (o : Op) (a : ORes o.Ans) :
    storeOps (h ++ [⟨o, a⟩]) = if touchesStore o then storeOps h ++ [o] else storeOps h := by
  rw [storeOps_append]
  cases ht : touchesStore o <;> simp [storeOps, ht]

/-- The rule for a coroutine that does not touch the store. -/
theorem wpp_quiet {α : Type} {h : List Ev} {p : P α} {W : List Op → Prop}
    (hp : ∀ tr, Partial p tr → Quiet tr) :
    WpP (fun _ _ => True) (InOrder W) (fun h' _ => storeOps h' = storeOps h) (fun h' _ => storeOps h' = storeOps h) h p := by
  refine wpp_mono (wpp_self ?_) (fun _ _ h => h) ?_ ?_
  · intro pre ev post hx
    exact inOrder_quiet _ _ (hp _ hx ev (by simp))
  · rintro h' a ⟨tr, rfl, hx⟩
    rw [storeOps_append, storeOps_quiet (hp tr (exec_partial hx)), List.append_nil]
  · rintro h' a ⟨tr, rfl, hx⟩
    rw [storeOps_append, storeOps_quiet (hp tr (exec_partial hx)), List.append_nil]

/-- The same from a rule about the operations. -/
theorem quiet_of_wpp {α : Type} {p : P α}
    (hw : WpP (fun _ _ => True) (fun _ o => touchesStore o = false) (fun _ _ => True) (fun _ _ => True) [] p) :
    ∀ tr, Partial p tr → Quiet tr := by
  intro tr htr ev hev
  obtain ⟨pre, post, rfl⟩ := List.append_of_mem hev
  exact wpp_partial htr hw answers_true rfl

section
variable {data : Dict PyStr PyStr} {h : List Ev}

/-- The client credentials grant works in order. -/
theorem wpp_credentials_work {env : OEnv} {cfg : Config} {data' : Dict PyStr PyStr} {c : Client} (hh : storeOps h = []) :
    WpP (fun _ _ => True) (InOrder (TokenWork data)) (fun _ _ => True) (fun _ _ => True) h
      (credentialsToken env cfg data' c) := by
  refine wpp_credentialsToken ?_ (fun _ _ _ _ => trivial) (fun _ _ _ _ => trivial)
  intro sc _ _
  exact ⟨_, .credentials c sc, by simp [hh]⟩

theorem validateRefreshToken_quiet {rt : RefreshTok} {c : Client} :
    ∀ tr, Partial (validateRefreshToken rt c) tr → Quiet tr := by
  refine quiet_of_wpp ?_
  unfold validateRefreshToken
  rw [wpp_ite]
  refine ⟨fun _ => trivial, fun _ => ?_⟩
  rw [wpp_bind, wpp_call]
  refine ⟨rfl, fun now _ => ?_, fun _ _ => trivial⟩
  rw [wpp_ite]
  exact ⟨fun _ => trivial, fun _ => trivial⟩

/-- The refresh token grant works in order. -/
theorem wpp_refresh_work {env : OEnv} {cfg : Config} {data' : Dict PyStr PyStr} {c : Client} (hh : storeOps h = [])
    (hd : Dict.get data' (py! "refresh_token") = Dict.get data (py! "refresh_token")) :
    WpP (fun _ _ => True) (InOrder (TokenWork data)) (fun _ _ => True) (fun _ _ => True) h
      (refreshToken env cfg data' c) := by
  unfold refreshToken
  rw [wpp_ite]
  refine ⟨fun _ => trivial, fun hbl => ?_⟩
  rw [Bool.not_eq_true, blank_eq_false] at hbl
  obtain ⟨token, htok, -⟩ := hbl
  rw [htok]
  dsimp only [Option.getD]
  rw [hd] at htok
  rw [wpp_bind, wpp_call]
  refine ⟨fun _ => ⟨_, .refresh token c none [] htok, ⟨_, by rw [hh]; rfl⟩⟩, ?_, fun _ _ => trivial⟩
  intro found _
  have h1 : storeOps (h ++ [⟨.getRefresh token, .ok found⟩]) = [.getRefresh token] := by
    rw [storeOps_op, hh]; rfl
  generalize (h ++ [(⟨.getRefresh token, .ok found⟩ : Ev)]) = h1' at h1 ⊢
  cases found with
  | none => trivial
  | some rt =>
    dsimp only
    rw [wpp_bind]
    refine wpp_mono (wpp_quiet validateRefreshToken_quiet) (fun _ _ h => h) ?_ (fun _ _ _ => trivial)
    rintro h2' - h2
    rw [h1] at h2
    rw [wpp_bind, wpp_lift, post_iff]
    refine ⟨fun sc _ => ?_, fun _ _ => trivial⟩
    rw [wpp_bind, wpp_lift, post_iff]
    refine ⟨fun sc' _ => ?_, fun _ _ => trivial⟩
    rw [wpp_bind, wpp_call]
    refine ⟨inOrder_quiet _ _ rfl, fun user _ => ?_, fun _ _ => trivial⟩
    have h3 := storeOps_op h2' (.findUser rt.userId) (.ok user)
    rw [h2] at h3
    generalize (h2' ++ [(⟨.findUser rt.userId, .ok user⟩ : Ev)]) = h3' at h3 ⊢
    rw [wpp_bind, wpp_call]
    refine ⟨fun _ => ⟨_, .refresh token c user sc' htok, ⟨_, by rw [h3]; rfl⟩⟩, fun access _ => ?_, fun _ _ => trivial⟩
    have h4 := storeOps_op h3' (.createAccess c (.user user) sc') (.ok access)
    rw [h3] at h4
    generalize (h3' ++ [(⟨.createAccess c (.user user) sc', .ok access⟩ : Ev)]) = h4' at h4 ⊢
    rw [wpp_bind]
    refine wpp_maybeRefresh ?_ (fun _ _ => trivial) (fun _ => trivial) (fun _ => trivial)
    exact fun _ _ => ⟨_, .refresh token c user sc' htok, by rw [h4]; exact List.prefix_rfl⟩

theorem validateAuthorizationCode_quiet {env : OEnv} {d : Dict PyStr Val} {ac : AuthCode} {c : Client} :
    ∀ tr, Partial (validateAuthorizationCode env d ac c) tr → Quiet tr := by
  refine quiet_of_wpp ?_
  unfold validateAuthorizationCode
  rw [wpp_bind, wpp_lift, post_iff]
  refine ⟨fun uri _ => ?_, fun _ _ => trivial⟩
  rw [wpp_ite]
  refine ⟨fun _ => trivial, fun _ => ?_⟩
  rw [wpp_ite]
  refine ⟨fun _ => trivial, fun _ => ?_⟩
  rw [wpp_ite]
  refine ⟨fun _ => trivial, fun _ => ?_⟩
  rw [wpp_ite]
  refine ⟨fun _ => trivial, fun _ => ?_⟩
  rw [wpp_bind, wpp_lift, post_iff]
  refine ⟨fun v _ => ?_, fun _ _ => trivial⟩
  match runChallenge env ac.challengeMethod ac.challenge v with
  | none => trivial
  | some (.error e) => trivial
  | some (.ok ok) =>
    dsimp only
    rw [wpp_ite]
    refine ⟨fun _ => trivial, fun _ => ?_⟩
    rw [wpp_bind, wpp_call]
    refine ⟨rfl, fun now _ => ?_, fun _ _ => trivial⟩
    rw [wpp_ite]
    exact ⟨fun _ => trivial, fun _ => trivial⟩

/-- The body of the code grant works in order, and after it the deletion of the code is in order. -/
theorem wpp_codeBody_work {env : OEnv} {cfg : Config} {hooks : Hooks} (hb : Benign hooks) {valid : Dict PyStr Val}
    {c : Client} {code : PyStr} (hh : storeOps h = []) (hd : Dict.get data (py! "code") = some code)
    (hv : Dict.get valid (py! "code") = some (.str code)) :
    WpP (fun _ _ => True) (InOrder (TokenWork data))
      (fun h' _ => TokenWork data (storeOps h' ++ [.deleteCode (.str code)]))
      (fun h' _ => TokenWork data (storeOps h' ++ [.deleteCode (.str code)])) h
      (codeTokenBody env cfg hooks valid c) := by
  unfold codeTokenBody
  rw [item_ok hv, wpp_bind, wpp_lift]
  show WpP _ _ _ _ _ _
  rw [wpp_bind, wpp_call]
  refine ⟨fun _ => ⟨_, .refused code hd, ⟨_, by rw [hh]; rfl⟩⟩, ?_, ?_⟩
  rotate_left
  · intro e _
    rw [storeOps_op, hh]
    exact .refused code hd
  intro found _
  have h1 : storeOps (h ++ [⟨.getCode (.str code), .ok found⟩]) = [.getCode (.str code)] := by
    rw [storeOps_op, hh]; rfl
  generalize (h ++ [(⟨.getCode (.str code), .ok found⟩ : Ev)]) = h1' at h1 ⊢
  cases found with
  | none =>
    dsimp only
    rw [wpp_raise, h1]
    exact .refused code hd
  | some ac =>
    dsimp only
    rw [wpp_bind]
    refine wpp_mono (wpp_quiet validateAuthorizationCode_quiet) (fun _ _ h => h) ?_ ?_
    rotate_left
    · intro h' e h2
      rw [h2, h1]
      exact .refused code hd
    rintro h2' - h2
    rw [h1] at h2
    rw [wpp_bind, wpp_call]
    refine ⟨inOrder_quiet _ _ rfl, fun user _ => ?_, ?_⟩
    rotate_left
    · intro e _
      rw [storeOps_op, h2]
      exact .refused code hd
    have h3 := storeOps_op h2' (.findUser ac.userId) (.ok user)
    rw [h2] at h3
    generalize (h2' ++ [(⟨.findUser ac.userId, .ok user⟩ : Ev)]) = h3' at h3 ⊢
    cases user with
    | none =>
      dsimp only
      rw [wpp_raise, h3]
      exact .refused code hd
    | some user =>
      dsimp only
      rw [wpp_bind, wpp_call]
      refine ⟨fun _ => ⟨_, .code code c user ac.scopes hd, ⟨_, by rw [h3]; rfl⟩⟩, fun access _ => ?_, ?_⟩
      rotate_left
      · intro e _
        rw [storeOps_op, h3]
        exact .code code c user ac.scopes hd
      have h4 := storeOps_op h3' (.createAccess c (.user (some user)) ac.scopes) (.ok access)
      rw [h3] at h4
      generalize (h3' ++ [(⟨.createAccess c (.user (some user)) ac.scopes, .ok access⟩ : Ev)]) = h4' at h4 ⊢
      have hooks_work : ∀ h' acc, TokenWork data (storeOps h' ++ [.deleteCode (.str code)]) →
          WpP (fun _ _ => True) (InOrder (TokenWork data))
            (fun h' _ => TokenWork data (storeOps h' ++ [.deleteCode (.str code)]))
            (fun h' _ => TokenWork data (storeOps h' ++ [.deleteCode (.str code)])) h'
            (runHooks acc (hooks.tokenResponse.map (fun h token => h token valid c user))) := by
        intro h' acc hw
        refine wpp_runHooks (benign_tokenResponse hb valid c user) inOrder_quiet ?_ ?_
        · intro tr _ hq _
          rw [storeOps_append, storeOps_quiet hq, List.append_nil]
          exact hw
        · intro tr _ hq _
          rw [storeOps_append, storeOps_quiet hq, List.append_nil]
          exact hw
      rw [wpp_bind]
      refine wpp_maybeRefresh ?_ ?_ ?_ ?_
      · exact fun _ _ => ⟨_, .codeRefresh code c user ac.scopes hd, ⟨_, by rw [h4]; rfl⟩⟩
      · intro _ t
        refine hooks_work _ _ ?_
        rw [storeOps_op, h4]
        exact .codeRefresh code c user ac.scopes hd
      · intro _
        refine hooks_work _ _ ?_
        rw [h4]
        exact .code code c user ac.scopes hd
      · intro e
        rw [storeOps_op, h4]
        exact .codeRefresh code c user ac.scopes hd

/-- The deletion of the code is in order. -/
theorem wpp_delete_work {code : PyStr} (hw : TokenWork data (storeOps h ++ [.deleteCode (.str code)])) :
    WpP (fun _ _ => True) (InOrder (TokenWork data)) (fun _ _ => True) (fun _ _ => True) h
      (deleteCode (.ok (.str code))) := by
  unfold deleteCode
  rw [wpp_bind, wpp_lift]
  exact (wpp_call (o := .deleteCode (.str code)) (Q := fun _ _ => True)).mpr
    ⟨fun _ => ⟨_, hw, List.prefix_rfl⟩, fun _ _ => trivial, fun _ _ => trivial⟩

/-- The code grant works in order. -/
theorem wpp_code_work {env : OEnv} {cfg : Config} {hooks : Hooks} (hb : Benign hooks) {data' : Dict PyStr PyStr}
    {c : Client} (hh : storeOps h = []) (hd : Dict.get data' (py! "code") = Dict.get data (py! "code")) :
    WpP (fun _ _ => True) (InOrder (TokenWork data)) (fun _ _ => True) (fun _ _ => True) h
      (codeToken env cfg hooks data' c) := by
  unfold codeToken
  rw [wpp_pbind]
  have hreq : ∀ h' e, storeOps h' = storeOps h → WpP (fun _ _ => True) (InOrder (TokenWork data)) (fun _ _ => True)
      (fun _ _ => True) h' (P.finally_ (P.raise e : P (Dict PyStr Val))
        (deleteCode (match Dict.get data' (py! "code") with
          | some c => .ok (.str c)
          | none => .error (.py .keyErr)))) := by
    intro h' e h1
    rw [wpp_finally, wpp_raise]
    cases hc : Dict.get data' (py! "code") with
    | none => trivial
    | some code =>
      rw [hd] at hc
      refine wpp_delete_work ?_
      rw [h1, hh]
      exact .failed code hc
  refine wpp_validateCodeTokenRequest hb inOrder_quiet ?_ ?_
  · intro tr valid code uri verifier hq hv
    have h1 : storeOps (h ++ tr) = [] := by rw [storeOps_append, hh, storeOps_quiet hq]; rfl
    have hdc := hv.dcode
    rw [hd] at hdc
    dsimp only
    rw [wpp_finally, item_ok hv.vcode]
    refine wpp_mono (wpp_codeBody_work hb h1 hdc hv.vcode) (fun _ _ h => h) ?_ ?_
    · intro h' _ hw
      exact wpp_delete_work hw
    · intro h' _ hw
      exact wpp_delete_work hw
  · intro tr e hq _
    refine hreq _ e ?_
    rw [storeOps_append, storeOps_quiet hq, List.append_nil]
end

/-- The token endpoint works in order. -/
theorem wpp_token_work {env : OEnv} {table : Hooks} (hb : Benign table) (p : Provider) (req : Request) :
    WpP (fun _ _ => True) (InOrder (TokenWork req.data)) (fun _ _ => True) (fun _ _ => True) []
      (p.token env table req) := by
  unfold Provider.token tokenEndpoint
  rw [wpp_catch]
  have hbody : WpP (fun _ _ => True) (InOrder (TokenWork req.data)) (fun _ _ => True) (fun _ _ => True) []
      (tokenBody env (p.objects env table) req) := by
    unfold tokenBody
    dsimp only
    rw [wpp_ite]
    refine ⟨fun _ => trivial, fun _ => ?_⟩
    rw [wpp_bind, wpp_lift, post_iff]
    refine ⟨?_, fun _ _ => trivial⟩
    intro grant hgrant
    obtain ⟨g, hg, hgt, rfl⟩ := validateGrantType_ok hgrant
    rw [wpp_bind, grantOf_methods, grantOf_type]
    refine wpp_authenticate (fun _ _ => inOrder_quiet _ _ rfl) ?_ (fun _ _ _ _ => trivial) (fun _ _ _ => trivial)
    intro m id c _ _ _ _
    have hh : storeOps ([] ++ [(⟨.findClient id, .ok (some c)⟩ : Ev)]) = [] := rfl
    generalize ([] ++ [(⟨.findClient id, .ok (some c)⟩ : Ev)]) = h0 at hh ⊢
    rw [wpp_ite]
    refine ⟨fun _ => trivial, fun _ => ?_⟩
    rw [wpp_bind]
    have hgrant : WpP (fun _ _ => True) (InOrder (TokenWork req.data)) (fun _ _ => True) (fun _ _ => True) h0
        ((grantOf env p.cfg table g).token (Dict.del req.data (py! "grant_type")) c) := by
      cases g with
      | authorizationCode => exact wpp_code_work hb hh (del_code _)
      | clientCredentials => exact wpp_credentials_work hh
      | refreshToken => exact wpp_refresh_work hh (del_refresh _)
    refine wpp_mono hgrant (fun _ _ h => h) ?_ (fun _ _ _ => trivial)
    intro h' token _
    rw [wpp_lift, post_iff]
    exact ⟨fun _ _ => trivial, fun _ _ => trivial⟩
  refine wpp_mono hbody (fun _ _ h => h) (fun _ _ _ => trivial) ?_
  intro h e _
  cases e with
  | py x => trivial
  | oauth y =>
    dsimp only [caught]
    rw [wpp_lift, post_iff]
    exact ⟨fun _ _ => trivial, fun _ _ => trivial⟩

/-- What a token request does to the store. -/
theorem token_work {env : OEnv} {table : Hooks} (hb : Benign table) {p : Provider} {req : Request} {tr : List Ev}
    (h : Partial (p.token env table req) tr) : ∃ ops, TokenWork req.data ops ∧ storeOps tr <+: ops := by
  refine work_of_inOrder .nothing ?_
  intro pre ev post hx
  exact wpp_partial h (wpp_token_work hb p req) answers_true hx

/-- A token request makes at most one access token. -/
theorem createAccess_unique {data : Dict PyStr PyStr} {ops pre : List Op} (hw : TokenWork data ops) (hp : pre <+: ops)
    {c c' : Client} {o o' : Owner} {s s' : List PyStr} (h1 : .createAccess c o s ∈ pre) (h2 : .createAccess c' o' s' ∈ pre) :
    c = c' ∧ o = o' ∧ s = s' := by
  have h1 := hp.subset h1
  have h2 := hp.subset h2
  cases hw <;> simp at h1 h2 <;> (obtain ⟨rfl, rfl, rfl⟩ := h1; obtain ⟨rfl, rfl, rfl⟩ := h2; exact ⟨rfl, rfl, rfl⟩)

theorem mem_storeOps {tr : List Ev} {ev : Ev} (h : ev ∈ tr) (ht : touchesStore ev.op = true) : ev.op ∈ storeOps tr :=
  List.mem_filter.mpr ⟨List.mem_map.mpr ⟨ev, h, rfl⟩, ht⟩

/-! ## Authorization -/

/-- The code grant stores one code at the authorization endpoint. -/
theorem wpp_codeAuthorize_work {env : OEnv} {cfg : Config} {hooks : Hooks} (hb : Benign hooks) {data : Dict PyStr PyStr}
    {c : Client} {user : User} {h : List Ev} (hh : storeOps h = []) :
    WpP (fun _ _ => True) (InOrder (AuthorizeWork (some user))) (fun _ _ => True) (fun _ _ => True) h
      (codeAuthorize env cfg hooks data c user) := by
  unfold codeAuthorize
  rw [wpp_bind]
  unfold validateAuthorizationRequest
  rw [wpp_bind, wpp_lift, post_iff]
  refine ⟨fun params _ => ?_, fun _ _ => trivial⟩
  refine wpp_runHooks (benign_authRequest hb data) inOrder_quiet ?_ (fun _ _ _ _ => trivial)
  intro tr valid hq _
  have h1 : storeOps (h ++ tr) = [] := by rw [storeOps_append, hh, storeOps_quiet hq]; rfl
  generalize h ++ tr = h1' at h1 ⊢
  rw [wpp_bind, wpp_lift, post_iff]
  refine ⟨fun scopes _ => ?_, fun _ _ => trivial⟩
  rw [wpp_bind, wpp_lift, post_iff]
  refine ⟨fun _ _ => ?_, fun _ _ => trivial⟩
  rw [wpp_bind, wpp_call]
  refine ⟨inOrder_quiet _ _ rfl, fun choices _ => ?_, fun _ _ => trivial⟩
  have h2 := storeOps_op h1' .choices64 (.ok choices)
  rw [h1] at h2
  generalize (h1' ++ [(⟨.choices64, .ok choices⟩ : Ev)]) = h2' at h2 ⊢
  rw [wpp_bind, wpp_lift, post_iff]
  refine ⟨fun code _ => ?_, fun _ _ => trivial⟩
  rw [wpp_bind, wpp_call]
  refine ⟨fun _ => ⟨_, .code code valid c user rfl, by rw [h2]; exact List.prefix_rfl⟩, fun _ _ => ?_, fun _ _ => trivial⟩
  rw [wpp_bind]
  refine wpp_runHooks (benign_authResponse hb code valid c user) inOrder_quiet ?_ (fun _ _ _ _ => trivial)
  intro tr' response _ _
  rw [wpp_bind, wpp_lift, post_iff]
  refine ⟨fun uri _ => ?_, fun _ _ => trivial⟩
  rw [wpp_lift, post_iff]
  exact ⟨fun _ _ => trivial, fun _ _ => trivial⟩

/-- The authorization endpoint works in order. -/
theorem wpp_authorize_work {env : OEnv} {table : Hooks} (hb : Benign table) (p : Provider) (req : Request) :
    WpP (fun _ _ => True) (InOrder (AuthorizeWork req.user))
      (fun _ _ => True) (fun _ _ => True) [] (p.authorize env table req) := by
  unfold Provider.authorize authorizeEndpoint
  rw [wpp_catch]
  have hbody : WpP (fun _ _ => True) (InOrder (AuthorizeWork req.user))
      (fun _ _ => True) (fun _ _ => True) [] (authorizeBody (p.objects env table) req) := by
    unfold authorizeBody
    dsimp only
    rw [wpp_bind, wpp_lift, post_iff]
    refine ⟨fun _ _ => ?_, fun _ _ => trivial⟩
    cases huser : req.user with
    | none => trivial
    | some user =>
      dsimp only
      rw [wpp_bind, wpp_lift, post_iff]
      refine ⟨fun rt _ => ?_, fun _ _ => trivial⟩
      rw [wpp_bind, wpp_lift, post_iff]
      refine ⟨fun grant hgrant => ?_, fun _ _ => trivial⟩
      obtain ⟨hg, rfl, rfl⟩ := validateResponseType_ok hgrant
      rw [wpp_bind, wpp_lift, post_iff]
      refine ⟨fun id _ => ?_, fun _ _ => trivial⟩
      rw [wpp_bind, wpp_lift, post_iff]
      refine ⟨fun uri _ => ?_, fun _ _ => trivial⟩
      rw [wpp_bind]
      refine wpp_validateClient (inOrder_quiet _ _ rfl) ?_ (fun _ _ _ => trivial) (fun _ _ _ => trivial) (fun _ => trivial)
      intro c _ _
      have hh : storeOps ([] ++ [(⟨.findClient id, .ok (some c)⟩ : Ev)]) = [] := rfl
      generalize ([] ++ [(⟨.findClient id, .ok (some c)⟩ : Ev)]) = h0 at hh ⊢
      rw [wpp_bind]
      change WpP _ _ _ _ _ (codeAuthorize env p.cfg table (Dict.del req.data (py! "response_type")) c user)
      refine wpp_mono (wpp_codeAuthorize_work hb hh) (fun _ _ h => h) ?_ (fun _ _ _ => trivial)
      intro h' url _
      rw [wpp_lift, post_iff]
      exact ⟨fun _ _ => trivial, fun _ _ => trivial⟩
  refine wpp_mono hbody (fun _ _ h => h) (fun _ _ _ => trivial) ?_
  intro h e _
  cases e with
  | py x => trivial
  | oauth y =>
    dsimp only [caught]
    rw [wpp_lift, post_iff]
    exact ⟨fun _ _ => trivial, fun _ _ => trivial⟩

/-- What an authorization request does to the store. -/
theorem authorize_work {env : OEnv} {table : Hooks} (hb : Benign table) {p : Provider} {req : Request} {tr : List Ev}
    (h : Partial (p.authorize env table req) tr) : ∃ ops, AuthorizeWork req.user ops ∧ storeOps tr <+: ops := by
  refine work_of_inOrder .nothing ?_
  intro pre ev post hx
  exact wpp_partial h (wpp_authorize_work hb p req) answers_true hx

end Psion
