import Verif.OAuth.WorkLemmas
import Verif.OAuth.ErrorAuthLemmas
import Verif.Spec.Refuse

/-!
# Refused requests: lemmas
-/

namespace Psion

open Spec

/-- An error was raised by the application, or nothing was given before. -/
def Refuses (table : Hooks) (h : List Ev) (e : OExc) : Prop :=
  ∀ x, e = .oauth x → GivingFailed table h ∨ GaveNothing h

section
variable {table : Hooks} {h : List Ev}

theorem nothing_nil : GaveNothing [] := nofun

theorem nothing_append {a b : List Ev} (ha : GaveNothing a) (hb : GaveNothing b) : GaveNothing (a ++ b) := by
  intro ev hev
  rcases List.mem_append.mp hev with hev | hev
  · exact ha ev hev
  · exact hb ev hev

theorem nothing_op {o : Op} {a : ORes o.Ans} (hh : GaveNothing h) (ho : ¬ Gives o) : GaveNothing (h ++ [⟨o, a⟩]) := by
  refine nothing_append hh ?_
  intro ev hev
  rw [List.mem_singleton] at hev
  rw [hev]
  exact ho

theorem nothing_quiet {tr : List Ev} (hq : Quiet tr) : GaveNothing tr := by
  intro ev hev hg
  have := hq ev hev
  revert this hg
  cases ev.op <;> simp [Gives, touchesStore]

theorem refuse_nothing {e : OExc} (hh : GaveNothing h) : Refuses table h e := fun _ _ => Or.inr hh

theorem refuse_py {x : Exc} : Refuses table h (.py x) := nofun

theorem refuse_app {o : Op} {e : OExc} (ho : Gives o ∨ ∃ v, o = .deleteCode v) : Refuses table (h ++ [⟨o, .error e⟩]) e := by
  rintro x rfl
  exact Or.inl (Or.inl ⟨o, x, ho, by simp⟩)

theorem givingFailed_mono {h h' : List Ev} (H : GivingFailed table h) (hs : h ⊆ h') : GivingFailed table h' := by
  rcases H with ⟨o, x, ho, H⟩ | ⟨f, hf, cd, d, c, u, tr, x, ht, H⟩ | ⟨f, hf, t, d, c, u, tr, x, ht, H⟩
  · exact Or.inl ⟨o, x, ho, hs H⟩
  · exact Or.inr (Or.inl ⟨f, hf, cd, d, c, u, tr, x, fun _ hx => hs (ht hx), H⟩)
  · exact Or.inr (Or.inr ⟨f, hf, t, d, c, u, tr, x, fun _ hx => hs (ht hx), H⟩)

/-- The rule of a coroutine that does not touch the store. -/
theorem wpp_nothing {α : Type} {p : P α} (hp : ∀ tr, Partial p tr → Quiet tr) (hh : GaveNothing h) :
    WpP (fun _ _ => True) (fun _ _ => True) (fun h' _ => GaveNothing h') (Refuses table) h p := by
  refine wpp_mono (wpp_self (fun _ _ _ _ => trivial)) (fun _ _ h => h) ?_ ?_
  · rintro h' a ⟨tr, rfl, hx⟩
    exact nothing_append hh (nothing_quiet (hp tr (exec_partial hx)))
  · rintro h' a ⟨tr, rfl, hx⟩
    exact refuse_nothing (nothing_append hh (nothing_quiet (hp tr (exec_partial hx))))

/-- The rule of a coroutine of which only the exceptions matter. -/
abbrev RefusesBy (table : Hooks) {α : Type} (h : List Ev) (q : P α) : Prop :=
  WpP (fun _ _ => True) (fun _ _ => True) (fun _ _ => True) (Refuses table) h q

theorem refuses_credentials {env : OEnv} {cfg : Config} {data : Dict PyStr PyStr} {c : Client} (hh : GaveNothing h) :
    RefusesBy table h (credentialsToken env cfg data c) := by
  unfold credentialsToken
  dsimp only
  rw [RefusesBy, wpp_bind, wpp_lift, post_iff]
  refine ⟨fun _ _ => ?_, fun _ _ => refuse_nothing hh⟩
  rw [wpp_bind, wpp_lift, post_iff]
  refine ⟨fun _ _ => ?_, fun _ _ => refuse_nothing hh⟩
  rw [wpp_bind, wpp_call]
  exact ⟨trivial, fun _ _ => trivial, fun _ _ => refuse_app (Or.inl trivial)⟩

theorem refuses_refresh {env : OEnv} {cfg : Config} {data : Dict PyStr PyStr} {c : Client} (hh : GaveNothing h) :
    RefusesBy table h (refreshToken env cfg data c) := by
  unfold refreshToken
  rw [RefusesBy, wpp_ite]
  refine ⟨fun _ => refuse_nothing hh, fun _ => ?_⟩
  rw [wpp_bind, wpp_call]
  refine ⟨trivial, fun found _ => ?_, fun _ _ => refuse_nothing (nothing_op hh id)⟩
  cases found with
  | none => exact refuse_nothing (nothing_op hh id)
  | some rt =>
    dsimp only
    rw [wpp_bind]
    refine wpp_mono (wpp_nothing validateRefreshToken_quiet (nothing_op hh id)) (fun _ _ h => h) ?_ (fun _ _ h => h)
    intro h' _ hh
    rw [wpp_bind, wpp_lift, post_iff]
    refine ⟨fun _ _ => ?_, fun _ _ => refuse_nothing hh⟩
    rw [wpp_bind, wpp_lift, post_iff]
    refine ⟨fun _ _ => ?_, fun _ _ => refuse_nothing hh⟩
    rw [wpp_bind, wpp_call]
    refine ⟨trivial, fun user _ => ?_, fun _ _ => refuse_nothing (nothing_op hh id)⟩
    rw [wpp_bind, wpp_call]
    refine ⟨trivial, fun access _ => ?_, fun _ _ => refuse_app (Or.inl trivial)⟩
    rw [wpp_bind]
    exact wpp_maybeRefresh (fun _ => trivial) (fun _ _ => trivial) (fun _ => trivial) (fun _ => refuse_app (Or.inl trivial))

theorem refuses_codeBody {env : OEnv} {cfg : Config} (hb : Benign table) {valid : Dict PyStr Val} {c : Client}
    (hh : GaveNothing h) : RefusesBy table h (codeTokenBody env cfg table valid c) := by
  unfold codeTokenBody
  rw [RefusesBy, wpp_bind, wpp_lift, post_iff]
  refine ⟨fun code _ => ?_, fun _ _ => refuse_nothing hh⟩
  rw [wpp_bind, wpp_call]
  refine ⟨trivial, fun found _ => ?_, fun _ _ => refuse_nothing (nothing_op hh id)⟩
  cases found with
  | none => exact refuse_nothing (nothing_op hh id)
  | some ac =>
    dsimp only
    rw [wpp_bind]
    refine wpp_mono (wpp_nothing validateAuthorizationCode_quiet (nothing_op hh id)) (fun _ _ h => h) ?_ (fun _ _ h => h)
    intro h' _ hh
    rw [wpp_bind, wpp_call]
    refine ⟨trivial, fun user _ => ?_, fun _ _ => refuse_nothing (nothing_op hh id)⟩
    cases user with
    | none => exact refuse_nothing (nothing_op hh id)
    | some user =>
      dsimp only
      rw [wpp_bind, wpp_call]
      refine ⟨trivial, fun access _ => ?_, fun _ _ => refuse_app (Or.inl trivial)⟩
      rw [wpp_bind]
      have hfin : ∀ h' refresh, WpP (fun _ _ => True) (fun _ _ => True) (fun _ _ => True) (Refuses table) h'
          (runHooks (createToken cfg access refresh (some ac.scopes))
            (table.tokenResponse.map (fun h token => h token valid c user))) := by
        intro h' refresh
        refine wpp_runHooks (benign_tokenResponse hb valid c user) (fun _ _ _ => trivial) (fun _ _ _ _ => trivial) ?_
        rintro tr e - hr x rfl
        obtain ⟨f, hf, acc', tr', -, hs, hx⟩ := hr
        obtain ⟨g, hg, rfl⟩ := List.mem_map.mp hf
        exact Or.inl (Or.inr (Or.inr
          ⟨g, hg, _, _, _, _, tr', x, fun _ h => List.mem_append_right _ (hs.subset h), hx⟩))
      exact wpp_maybeRefresh (fun _ => trivial) (fun _ t => hfin _ _) (fun _ => hfin _ _) (fun _ => refuse_app (Or.inl trivial))

theorem refuses_delete {code : ORes Val} {e : OExc} (he : Refuses table h e)
    (hc : ∀ x, code = .error x → ∃ y, x = .py y) :
    WpP (fun _ _ => True) (fun _ _ => True) (fun h _ => Refuses table h e) (Refuses table) h (deleteCode code) := by
  unfold deleteCode
  rw [wpp_bind, wpp_lift, post_iff]
  refine ⟨fun v _ => ?_, ?_⟩
  · refine (wpp_call (o := .deleteCode v) (Q := fun h _ => Refuses table h e)).mpr
      ⟨trivial, fun _ _ => ?_, fun _ _ => refuse_app (Or.inr ⟨_, rfl⟩)⟩
    intro x hx
    rcases he x hx with H | H
    · exact Or.inl (givingFailed_mono H (List.subset_append_left _ _))
    · exact Or.inr (nothing_op H id)
  · intro x hx
    obtain ⟨y, rfl⟩ := hc x hx
    exact refuse_py

theorem refuses_code {env : OEnv} {cfg : Config} (hb : Benign table) {data : Dict PyStr PyStr} {c : Client}
    (hh : GaveNothing h) : RefusesBy table h (codeToken env cfg table data c) := by
  unfold codeToken
  rw [RefusesBy, wpp_pbind]
  refine wpp_validateCodeTokenRequest hb (fun _ _ _ => trivial) ?_ ?_
  · intro tr valid code uri verifier hq hv
    dsimp only
    rw [wpp_finally, item_ok hv.vcode]
    refine wpp_mono (refuses_codeBody hb (nothing_append hh (nothing_quiet hq))) (fun _ _ h => h) ?_ ?_
    · intro h' _ _
      unfold deleteCode
      rw [wpp_bind, wpp_lift]
      exact (wpp_call (o := .deleteCode (.str code)) (Q := fun _ _ => True)).mpr
        ⟨trivial, fun _ _ => trivial, fun _ _ => refuse_app (Or.inr ⟨_, rfl⟩)⟩
    · intro h' e he
      exact refuses_delete he nofun
  · intro tr e hq _
    dsimp only
    rw [wpp_finally, wpp_raise]
    refine refuses_delete (refuse_nothing (nothing_append hh (nothing_quiet hq))) ?_
    intro x hx
    split at hx
    · cases hx
    · cases hx; exact ⟨_, rfl⟩

end

/-- Rule for the body of the token endpoint. -/
theorem refuses_tokenBody {env : OEnv} {table : Hooks} (hb : Benign table) {p : Provider} {req : Request} :
    WpP (fun _ _ => True) (fun _ _ => True) (fun _ r => r.status = 200) (Refuses table) []
      (tokenBody env (p.objects env table) req) := by
  unfold tokenBody
  dsimp only
  rw [wpp_ite]
  refine ⟨fun _ => refuse_nothing nothing_nil, fun _ => ?_⟩
  rw [wpp_bind, wpp_lift, post_iff]
  refine ⟨?_, fun _ _ => refuse_nothing nothing_nil⟩
  intro grant hgrant
  obtain ⟨g, hg, hgt, rfl⟩ := validateGrantType_ok hgrant
  rw [wpp_bind]
  refine wpp_authenticate (fun _ _ => trivial) ?_ ?_ (fun _ _ _ => refuse_nothing (nothing_op nothing_nil (fun h => h)))
  · intro m id c _ _ _ _
    have hh : GaveNothing ([] ++ [(⟨.findClient id, .ok (some c)⟩ : Ev)]) := nothing_op nothing_nil (fun h => h)
    generalize ([] ++ [(⟨.findClient id, .ok (some c)⟩ : Ev)]) = h0 at hh ⊢
    rw [wpp_ite]
    refine ⟨fun _ => refuse_nothing hh, fun _ => ?_⟩
    rw [wpp_bind]
    have hgr : RefusesBy table h0 ((grantOf env p.cfg table g).token (Dict.del req.data (py! "grant_type")) c) := by
      cases g with
      | authorizationCode => exact refuses_code hb hh
      | clientCredentials => exact refuses_credentials hh
      | refreshToken => exact refuses_refresh hh
    refine wpp_mono hgr (fun _ _ h => h) ?_ (fun _ _ h => h)
    intro h' token _
    rw [wpp_lift, post_liftRes]
    exact ⟨fun _ hr => (Props.jsonResponse_status hr).1, fun _ _ => refuse_py⟩
  · rintro h' e hh -
    refine refuse_nothing ?_
    rcases hh with rfl | ⟨id, r, rfl⟩
    · exact nothing_nil
    · exact nothing_op nothing_nil (fun h => h)

theorem wpp_token_refuse {env : OEnv} {table : Hooks} (hb : Benign table) (p : Provider) (req : Request) :
    WpP (fun _ _ => True) (fun _ _ => True)
      (fun h r => r.status = 200 ∨ GivingFailed table h ∨ GaveNothing h)
      (fun _ _ => True) [] (p.token env table req) := by
  unfold Provider.token tokenEndpoint
  rw [wpp_catch]
  refine wpp_mono (refuses_tokenBody hb) (fun _ _ _ => trivial) (fun _ _ h => Or.inl h) ?_
  intro h e he
  cases e with
  | oauth x =>
    dsimp only [caught]
    rw [wpp_lift, post_iff]
    exact ⟨fun r hr => Or.inr (he x rfl), fun _ _ => trivial⟩
  | py x => trivial

/-! ## Authorization -/

theorem refuses_codeAuthorize {env : OEnv} {cfg : Config} {table : Hooks} (hb : Benign table) {data : Dict PyStr PyStr}
    {c : Client} {user : User} {h : List Ev} (hh : GaveNothing h) :
    RefusesBy table h (codeAuthorize env cfg table data c user) := by
  unfold codeAuthorize validateAuthorizationRequest
  rw [RefusesBy, wpp_bind, wpp_bind, wpp_lift, post_iff]
  refine ⟨fun params _ => ?_, fun _ _ => refuse_nothing hh⟩
  refine wpp_runHooks (benign_authRequest hb data) (fun _ _ _ => trivial) ?_
    (fun tr _ hq _ => refuse_nothing (nothing_append hh (nothing_quiet hq)))
  intro tr valid hq _
  have hh := nothing_append hh (nothing_quiet hq)
  generalize h ++ tr = h1 at hh ⊢
  rw [wpp_bind, wpp_lift, post_iff]
  refine ⟨fun scopes _ => ?_, fun _ _ => refuse_nothing hh⟩
  rw [wpp_bind, wpp_lift, post_iff]
  refine ⟨fun _ _ => ?_, fun _ _ => refuse_nothing hh⟩
  rw [wpp_bind, wpp_call]
  refine ⟨trivial, fun choices _ => ?_, fun _ _ => refuse_nothing (nothing_op hh id)⟩
  rw [wpp_bind, wpp_lift, post_liftRes]
  refine ⟨fun code _ => ?_, fun _ _ => refuse_py⟩
  rw [wpp_bind]
  refine wpp_call.mpr ⟨trivial, fun _ _ => ?_, fun _ _ => refuse_app (Or.inl trivial)⟩
  rw [wpp_bind]
  refine wpp_runHooks (benign_authResponse hb code valid c user) (fun _ _ _ => trivial) ?_ ?_
  · intro tr response _ _
    rw [wpp_bind, wpp_lift, post_iff]
    refine ⟨fun uri _ => ?_, ?_⟩
    · rw [wpp_lift, post_iff]
      refine ⟨fun _ _ => trivial, ?_⟩
      intro e he
      unfold urlencodeVals at he
      split at he
      · cases he; exact refuse_py
      · revert he
        cases urlencode _ _ <;> intro he <;> cases he
        exact refuse_py
    · intro e he
      unfold item at he
      revert he
      cases Dict.getItem valid (py! "redirect_uri") <;> intro he <;> cases he
      exact refuse_py
  · rintro tr e - hr x rfl
    obtain ⟨f, hf, acc', tr', -, hs, hx⟩ := hr
    obtain ⟨g, hg, rfl⟩ := List.mem_map.mp hf
    exact Or.inl (Or.inr (Or.inl
      ⟨g, hg, _, _, _, _, tr', x, fun _ h => List.mem_append_right _ (hs.subset h), hx⟩))

theorem refuses_authorizeBody {env : OEnv} {table : Hooks} (hb : Benign table) {p : Provider} {req : Request} :
    RefusesBy table [] (authorizeBody (p.objects env table) req) := by
  unfold authorizeBody
  dsimp only
  rw [RefusesBy, wpp_bind, wpp_lift, post_iff]
  refine ⟨fun _ _ => ?_, fun _ _ => refuse_nothing nothing_nil⟩
  cases huser : req.user with
  | none => exact refuse_nothing nothing_nil
  | some user =>
    dsimp only
    rw [wpp_bind, wpp_lift, post_iff]
    refine ⟨fun rt _ => ?_, fun _ _ => refuse_nothing nothing_nil⟩
    rw [wpp_bind, wpp_lift, post_iff]
    refine ⟨fun grant hgrant => ?_, fun _ _ => refuse_nothing nothing_nil⟩
    obtain ⟨hg, rfl, rfl⟩ := validateResponseType_ok hgrant
    rw [wpp_bind, wpp_lift, post_iff]
    refine ⟨fun id _ => ?_, fun _ _ => refuse_nothing nothing_nil⟩
    rw [wpp_bind, wpp_lift, post_iff]
    refine ⟨fun uri _ => ?_, fun _ _ => refuse_nothing nothing_nil⟩
    rw [wpp_bind]
    unfold validateClient
    rw [wpp_bind, wpp_call]
    refine ⟨trivial, fun found _ => ?_, fun _ _ => refuse_nothing (nothing_op nothing_nil (fun h => h))⟩
    have hh : GaveNothing ([] ++ [(⟨.findClient id, .ok found⟩ : Ev)]) := nothing_op nothing_nil (fun h => h)
    generalize ([] ++ [(⟨.findClient id, .ok found⟩ : Ev)]) = h0 at hh ⊢
    cases found with
    | none => exact refuse_nothing hh
    | some c =>
      dsimp only
      rw [wpp_ite, wpp_ite]
      refine ⟨fun _ => refuse_nothing hh, fun _ => ⟨fun _ => refuse_nothing hh, fun _ => ?_⟩⟩
      rw [wpp_ret, wpp_bind]
      change WpP _ _ _ _ _ (codeAuthorize env p.cfg table (Dict.del req.data (py! "response_type")) c user)
      refine wpp_mono (refuses_codeAuthorize hb hh) (fun _ _ h => h) ?_ (fun _ _ h => h)
      intro h' url _
      rw [wpp_lift, post_liftRes]
      exact ⟨fun _ _ => trivial, fun _ _ => refuse_py⟩

theorem wpp_authorize_refuse {env : OEnv} {table : Hooks} (hb : Benign table) (p : Provider) (req : Request) :
    WpP (fun _ _ => True) (fun _ _ => True)
      (fun h r => AuthorizeOk env table p req h r ∨ GivingFailed table h ∨ GaveNothing h)
      (fun _ _ => True) [] (p.authorize env table req) := by
  unfold Provider.authorize authorizeEndpoint
  rw [wpp_catch]
  refine wpp_mono (wpp_and (wpp_authorizeBody hb) (refuses_authorizeBody hb)) (fun _ _ _ => trivial)
    (fun _ _ h => Or.inl h.1) ?_
  rintro h e ⟨-, he⟩
  cases e with
  | oauth x =>
    dsimp only [caught]
    rw [wpp_lift, post_iff]
    exact ⟨fun r hr => Or.inr (he x rfl), fun _ _ => trivial⟩
  | py x => trivial

/-! ## Revocation -/

theorem refuses_revokeBody (env : OEnv) (req : Request) :
    WpP (fun _ _ => True) (fun _ _ => True) (fun h a => GaveNothing h ∨ ∃ r, a = some r ∧ r.status = 200)
      (fun h e => ∀ x, e = .oauth x → (∃ c t k, (⟨.revoke c t k, .error (.oauth x)⟩ : Ev) ∈ h) ∨ GaveNothing h) [] (revokeBody env req) := by
  unfold revokeBody
  rw [wpp_bind]
  refine wpp_authenticate (fun _ _ => trivial) ?_ ?_ (fun _ _ _ => fun _ _ => Or.inr (nothing_op nothing_nil (fun h => h)))
  · intro m id c _ _ _ _
    have hh : GaveNothing ([] ++ [(⟨.findClient id, .ok (some c)⟩ : Ev)]) := nothing_op nothing_nil (fun h => h)
    generalize ([] ++ [(⟨.findClient id, .ok (some c)⟩ : Ev)]) = h0 at hh ⊢
    dsimp only
    rw [wpp_ite]
    refine ⟨fun _ => Or.inl hh, fun _ => ?_⟩
    rw [wpp_ite]
    refine ⟨fun _ _ _ => Or.inr hh, fun _ => ?_⟩
    rw [wpp_bind]
    refine wpp_call.mpr ⟨trivial, fun _ _ => ?_, fun _ _ => by
      rintro x rfl
      exact Or.inl ⟨_, _, _, List.mem_append_right _ List.mem_cons_self⟩⟩
    rw [wpp_bind, wpp_lift, post_liftRes]
    exact ⟨fun r hr => Or.inr ⟨r, rfl, (Props.jsonResponse_status hr).1⟩, fun _ _ => nofun⟩
  · rintro h' e hh -
    refine fun _ _ => Or.inr ?_
    rcases hh with rfl | ⟨id, r, rfl⟩
    · exact nothing_nil
    · exact nothing_op nothing_nil (fun h => h)

theorem wpp_revoke_refuse (env : OEnv) (p : Provider) (req : Request) :
    WpP (fun _ _ => True) (fun _ _ => True)
      (fun h a => (∃ c t k x, (⟨.revoke c t k, .error (.oauth x)⟩ : Ev) ∈ h) ∨ GaveNothing h ∨ ∃ r, a = some r ∧ r.status = 200)
      (fun _ _ => True) [] (p.revoke env req) := by
  unfold Provider.revoke revokeEndpoint
  rw [wpp_catch]
  refine wpp_mono (refuses_revokeBody env req) (fun _ _ _ => trivial) (fun _ _ h => Or.inr h) ?_
  intro h e he
  cases e with
  | oauth x =>
    dsimp only [caught]
    rw [wpp_bind, wpp_lift, post_liftRes]
    refine ⟨?_, fun _ _ => trivial⟩
    rintro r hr
    rcases he x rfl with ⟨c, t, k, hx⟩ | hx
    · exact Or.inl ⟨c, t, k, x, hx⟩
    · exact Or.inr (Or.inl hx)
  | py x => trivial

end Psion
