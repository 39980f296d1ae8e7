import Verif.OAuth.HookLemmas

/-!
# The OpenID Connect hook: lemmas
-/

namespace Psion

open Spec

/-- A hook whose precondition says that it is quiet and leaves the reserved members alone. -/
theorem benign_of_wpp {reserved : List PyStr} {p : P (Option (Dict PyStr Val))}
    (h : WpP (fun _ _ => True) (fun _ o => touchesStore o = false)
      (fun _ r => ∀ d, r = some d → ∀ k ∈ reserved, Dict.get d k = none) (fun _ _ => True) [] p) :
    BenignHook reserved p := by
  constructor
  · intro tr htr ev hev
    obtain ⟨pre, post, rfl⟩ := List.append_of_mem hev
    exact wpp_partial htr h answers_true rfl
  · intro tr d hx
    exact wpp_exec_ok hx h answers_true d rfl

/-- `_generate_id_token` performs no operation on codes and tokens. -/
theorem wpp_generateIdToken {A : List Ev → Ev → Prop} {S : List Ev → Op → Prop} {env : OEnv} {cfg : Config}
    {token : Dict PyStr Val} {client : Client} {user : User} {h : List Ev}
    (hS : ∀ h o, touchesStore o = false → S h o) :
    WpP A S (fun _ _ => True) (fun _ _ => True) h (generateIdToken env cfg token client user) := by
  have lift : ∀ {α : Type} {h : List Ev} {Q : List Ev → α → Prop} {r : ORes α}, (∀ a, Q h a) →
      WpP A S Q (fun _ _ => True) h (P.lift r) := by
    intro α h Q r hq
    rw [wpp_lift, post_iff]
    exact ⟨fun a _ => hq a, fun _ _ => trivial⟩
  have call : ∀ {o : Op} {h : List Ev} {Q : List Ev → o.Ans → Prop}, touchesStore o = false →
      (∀ a, Q (h ++ [⟨o, .ok a⟩]) a) → WpP A S Q (fun _ _ => True) h (P.call o) := by
    intro o h Q ho hq
    rw [wpp_call]
    exact ⟨hS _ _ ho, fun a _ => hq a, fun _ _ => trivial⟩
  unfold generateIdToken
  rw [wpp_bind]; refine call rfl fun info => ?_
  rw [wpp_bind]; refine lift fun scope => ?_
  rw [wpp_bind]; refine lift fun scopes => ?_
  rw [wpp_bind]; refine call rfl fun userinfo => ?_
  rw [wpp_bind]; refine call rfl fun now => ?_
  rw [wpp_bind]; refine lift fun hash => ?_
  rw [wpp_bind]; refine call rfl fun now1 => ?_
  rw [wpp_bind]; refine lift fun claims => ?_
  rw [wpp_bind]; refine lift fun kid => ?_
  rw [wpp_bind]; refine call rfl fun now2 => ?_
  rw [wpp_bind]; refine lift fun jwt => ?_
  rw [wpp_bind]; refine call rfl fun seed => ?_
  exact lift fun _ => trivial

theorem benign_oidcRequest (data : Dict PyStr PyStr) :
    BenignHook [py! "code_challenge", py! "code_challenge_method", py! "redirect_uri", py! "scopes", py! "state"]
      (oidcAuthorizationRequest data) := by
  refine benign_of_wpp ?_
  unfold oidcAuthorizationRequest
  rw [wpp_ite, wpp_ret, wpp_ret]
  refine ⟨fun _ => nofun, fun _ => ?_⟩
  rintro d ⟨⟩ k hk
  simp only [List.mem_cons, List.not_mem_nil, or_false] at hk
  rcases hk with rfl | rfl | rfl | rfl | rfl <;> rfl

theorem benign_oidcResponse (env : OEnv) (cfg : Config) (token data : Dict PyStr Val) (client : Client)
    (user : User) :
    BenignHook [py! "access_token", py! "token_type", py! "expires_in", py! "refresh_token", py! "scope"]
      (oidcTokenResponse env cfg token data client user) := by
  refine benign_of_wpp ?_
  unfold oidcTokenResponse
  rw [wpp_bind, wpp_lift, post_iff]
  refine ⟨fun scope _ => ?_, fun _ _ => trivial⟩
  rw [wpp_bind, wpp_lift, post_iff]
  refine ⟨fun isOpenid _ => ?_, fun _ _ => trivial⟩
  rw [wpp_ite]
  refine ⟨fun _ => ?_, fun _ => nofun⟩
  rw [wpp_bind]
  refine wpp_mono (wpp_generateIdToken (fun _ _ h => h)) (fun _ _ h => h) ?_ (fun _ _ _ => trivial)
  rintro h t - d ⟨⟩ k hk
  simp only [List.mem_cons, List.not_mem_nil, or_false] at hk
  rcases hk with rfl | rfl | rfl | rfl | rfl <;> rfl

theorem benign_empty : Benign Hooks.empty := by
  constructor <;> intro h hh <;> exact absurd hh List.not_mem_nil

/-- Registering the OpenID Connect hook keeps a table well behaved. -/
theorem benign_add_oidc {t : Hooks} (hb : Benign t) (env : OEnv) (cfg : Config) :
    Benign (t.add (oidcHook env cfg)) := by
  constructor
  · intro h hh data
    rcases List.mem_append.mp hh with hh | hh
    · exact hb.authorizationRequest h hh data
    · rw [List.mem_singleton.mp hh]; exact benign_oidcRequest data
  · intro h hh code data client user
    rcases List.mem_append.mp hh with hh | hh
    · exact hb.authorizationResponse h hh code data client user
    · exact absurd hh List.not_mem_nil
  · intro h hh data
    rcases List.mem_append.mp hh with hh | hh
    · exact hb.tokenRequest h hh data
    · exact absurd hh List.not_mem_nil
  · intro h hh token data client user
    rcases List.mem_append.mp hh with hh | hh
    · exact hb.tokenResponse h hh token data client user
    · rw [List.mem_singleton.mp hh]; exact benign_oidcResponse env cfg token data client user

/-- However often `add_hook` is used with the OpenID Connect hook, the table stays well behaved. -/
theorem benign_addHook_oidc {t : Hooks} (hb : Benign t) (env : OEnv) (p : Provider) (cls : Option GrantClass) :
    Benign (addHook t p cls (oidcHook env)) := by
  unfold addHook
  generalize p.grants.filter _ = l
  induction l generalizing t with
  | nil => exact hb
  | cons g l ih => exact ih (benign_add_oidc hb env p.cfg)

end Psion
