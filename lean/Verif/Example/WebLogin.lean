import Verif.Example.WebLemmas
import Verif.OAuth.RedirectLemmas

/-!
# The web layer of the example application: lemmas about login and redirects
-/

namespace Psion.Example

open Psion Spec

/-! ## The end of a login -/

/-- What a request that sets the session cookie has done. -/
def LoggedIn (emailOk : PyStr → Bool) (req : WebRequest) (h : List WEv) (r : ORes Served) : Prop :=
  ∀ sv ck, r = .ok sv → sv.cookie = some ck →
    req.route = .login ∧ req.method = py! "POST" ∧ req.form.valid emailOk = true ∧
    (⟨.userByEmail req.form.email, .ok (some (ck.userId, req.form.password))⟩ : WEv) ∈ h ∧
    ((⟨.sessionOf ck.userId, .ok (some ck.sessionId)⟩ : WEv) ∈ h ∨
      (⟨.saveSession ck.sessionId ck.userId, .ok ()⟩ : WEv) ∈ h) ∧
    redirectTo (afterLogin req) = .ok sv.reply

theorem loggedIn_error {emailOk : PyStr → Bool} (req : WebRequest) (h : List WEv) (e : OExc) : LoggedIn emailOk req h (.error e) := nofun

theorem loggedIn_served {emailOk : PyStr → Bool} (req : WebRequest) (h : List WEv) (r : Res Reply) :
    WWp (fun _ _ => True) (LoggedIn emailOk req) h (served r) := by
  unfold served WP.lift
  intro sv ck h1 h2
  cases r with
  | error e => cases h1
  | ok r => cases h1; cases h2

theorem loggedIn_lib {emailOk : PyStr → Bool} {α : Type} (req : WebRequest) (h : List WEv) (p : P α) (f : α → WP Served)
    (hf : ∀ h a, WWp (fun _ _ => True) (LoggedIn emailOk req) h (f a)) :
    WWp (fun _ _ => True) (LoggedIn emailOk req) h (WP.bind (WP.lib p) f) :=
  wwp_libcall (fun _ _ => trivial) hf (fun _ _ => loggedIn_error _ _ _)

theorem loggedIn_loginPost (emailOk : PyStr → Bool) {req : WebRequest} (h : List WEv) (user : Option User)
    (hr : req.route = .login) (hm : req.method = py! "POST") :
    WWp (fun _ _ => True) (LoggedIn emailOk req) h (loginPost emailOk req user) := by
  unfold loginPost
  cases user with
  | some u => exact loggedIn_served _ _ _
  | none =>
    dsimp only
    split
    · exact loggedIn_served _ _ _
    · rename_i hv
      have hv : req.form.valid emailOk = true := by simpa using hv
      refine wwp_call trivial (fun found => ?_) (fun _ => loggedIn_error _ _ _)
      cases found with
      | none => exact loggedIn_served _ _ _
      | some x =>
        obtain ⟨uid, pw⟩ := x
        dsimp only
        split
        · exact loggedIn_served _ _ _
        · rename_i hpw
          have hpw : pw = req.form.password := Decidable.of_not_not hpw
          subst hpw
          have done : ∀ (h : List WEv) (sid : PyStr),
              (⟨.userByEmail req.form.email, .ok (some (uid, req.form.password))⟩ : WEv) ∈ h →
              ((⟨.sessionOf uid, .ok (some sid)⟩ : WEv) ∈ h ∨ (⟨.saveSession sid uid, .ok ()⟩ : WEv) ∈ h) →
              WWp (fun _ _ => True) (LoggedIn emailOk req) h (loggedIn req uid sid) := by
            intro h sid h1 h2
            unfold loggedIn WP.lift
            intro sv ck h3 h4
            cases hred : redirectTo (afterLogin req) with
            | error e => rw [hred] at h3; cases h3
            | ok reply =>
              rw [hred] at h3
              cases h3
              cases h4
              exact ⟨hr, hm, hv, h1, h2, rfl⟩
          refine wwp_call trivial (fun session => ?_) (fun _ => loggedIn_error _ _ _)
          cases session with
          | some sid => exact done _ sid (by simp) (Or.inl (by simp))
          | none =>
            refine wwp_call trivial (fun choices => ?_) (fun _ => loggedIn_error _ _ _)
            refine wwp_lift (fun sid _ => ?_) (fun _ _ => loggedIn_error _ _ _)
            exact wwp_call trivial (fun x => done _ sid (by simp) (Or.inr (by cases x; simp))) (fun _ => loggedIn_error _ _ _)

theorem loggedIn_logout {emailOk : PyStr → Bool} {req : WebRequest} {h : List WEv} {uid : PyStr} (f : Unit → WP Served) (b : Bool)
    (hf : ∀ h' x, WWp (fun _ _ => True) (LoggedIn emailOk req) h' (f x)) :
    WWp (fun _ _ => True) (LoggedIn emailOk req) h (WP.bind (if b then both (WP.call (.deleteRefresh uid)) (WP.call (.deleteSessions uid))
      else both (WP.call (.deleteSessions uid)) (WP.call (.deleteRefresh uid))) f) := by
  refine wwp_seq ?_
  have key : ∀ (p q : WP Unit), (∀ h' (Q : List WEv → ORes Unit → Prop), (∀ h a, Q h a) → WWp (fun _ _ => True) Q h' p) →
      (∀ h' (Q : List WEv → ORes Unit → Prop), (∀ h a, Q h a) → WWp (fun _ _ => True) Q h' q) →
      WWp (fun _ _ => True) (fun h r => match r with
        | .ok a => WWp (fun _ _ => True) (LoggedIn emailOk req) h (f a)
        | .error e => LoggedIn emailOk req h (.error e)) h (both p q) := by
    intro p q hp hq
    unfold both
    rw [wwp_bind]
    refine hp _ _ (fun h r => ?_)
    rw [wwp_bind]
    refine hq _ _ (fun h s => ?_)
    cases r with
    | error e => exact loggedIn_error _ _ _
    | ok x =>
      cases s with
      | error e => exact loggedIn_error _ _ _
      | ok y => exact hf _ _
  cases b with
  | true =>
    rw [if_pos rfl]
    refine wwp_mono (fun h r hr => ?_) _ _ (key (WP.call (.deleteRefresh uid)) (WP.call (.deleteSessions uid))
      (fun _ _ hQ => ⟨trivial, fun r => hQ _ r⟩) (fun _ _ hQ => ⟨trivial, fun r => hQ _ r⟩))
    cases r <;> exact hr
  | false =>
    rw [if_neg Bool.false_ne_true]
    refine wwp_mono (fun h r hr => ?_) _ _ (key (WP.call (.deleteSessions uid)) (WP.call (.deleteRefresh uid))
      (fun _ _ hQ => ⟨trivial, fun r => hQ _ r⟩) (fun _ _ hQ => ⟨trivial, fun r => hQ _ r⟩))
    cases r <;> exact hr

theorem loggedIn_view (env : OEnv) (table : Hooks) (emailOk : PyStr → Bool) {req : WebRequest} (h : List WEv)
    (user : Option User) : WWp (fun _ _ => True) (LoggedIn emailOk req) h (view env table emailOk req user) := by
  unfold view
  cases hr : req.route with
  | home => exact loggedIn_served _ _ _
  | error => exact loggedIn_served _ _ _
  | login =>
    dsimp only
    split
    · unfold loginGet
      cases user <;> exact loggedIn_served _ _ _
    · split
      · rename_i hp
        exact loggedIn_loginPost emailOk h user hr (of_decide_eq_true hp)
      · exact loggedIn_served _ _ _
  | logout =>
    dsimp only
    split
    · unfold logoutGet
      cases user with
      | none => exact loggedIn_served _ _ _
      | some u =>
        dsimp only
        split
        · exact loggedIn_error _ _ _
        · refine wwp_call trivial (fun b => ?_) (fun _ => loggedIn_error _ _ _)
          exact loggedIn_logout _ b (fun _ _ => loggedIn_served _ _ _)
    · split <;> exact loggedIn_served _ _ _
  | authorize =>
    dsimp only
    split
    · unfold authorizeGet
      cases user with
      | none =>
        dsimp only
        split
        · exact loggedIn_error _ _ _
        · exact loggedIn_served _ _ _
      | some u =>
        refine wwp_lift (fun r _ => ?_) (fun _ _ => loggedIn_error _ _ _)
        exact loggedIn_lib _ _ _ _ (fun _ _ => loggedIn_served _ _ _)
    · exact loggedIn_served _ _ _
  | revoke =>
    dsimp only
    split
    · refine wwp_lift (fun r _ => ?_) (fun _ _ => loggedIn_error _ _ _)
      exact loggedIn_lib _ _ _ _ (fun _ _ => loggedIn_served _ _ _)
    · exact loggedIn_served _ _ _
  | token =>
    dsimp only
    split
    · refine wwp_lift (fun r _ => ?_) (fun _ _ => loggedIn_error _ _ _)
      exact loggedIn_lib _ _ _ _ (fun _ _ => loggedIn_served _ _ _)
    · exact loggedIn_served _ _ _

/-- A request that sets the session cookie is a login with the password of the user. -/
theorem app_cookie {env : OEnv} {table : Hooks} {emailOk : PyStr → Bool} {req : WebRequest} {tr : List WEv} {sv : Served}
    {ck : Cookie} (h : WExec (app env table emailOk req) tr (.ok sv)) (hc : sv.cookie = some ck) :
    req.route = .login ∧ req.method = py! "POST" ∧ req.form.valid emailOk = true ∧
    (⟨.userByEmail req.form.email, .ok (some (ck.userId, req.form.password))⟩ : WEv) ∈ tr ∧
    ((⟨.sessionOf ck.userId, .ok (some ck.sessionId)⟩ : WEv) ∈ tr ∨
      (⟨.saveSession ck.sessionId ck.userId, .ok ()⟩ : WEv) ∈ tr) ∧
    redirectTo (afterLogin req) = .ok sv.reply := by
  have key : WWp (fun _ _ => True) (LoggedIn emailOk req) [] (app env table emailOk req) := by
    unfold app
    split
    · exact loggedIn_view env table emailOk [] none
    · refine wwp_call trivial (fun data => ?_) (fun _ => loggedIn_error _ _ _)
      cases data with
      | none => exact loggedIn_view env table emailOk _ none
      | some x =>
        cases x with
        | none => exact loggedIn_served _ _ _
        | some u => exact loggedIn_view env table emailOk _ (some u)
  exact wwp_exec h [] key sv ck rfl hc

/-! ## Redirects -/

theorem redirectTo_ok {url : PyStr} {reply : Reply} (h : redirectTo url = .ok reply) :
    ∃ loc, quotePlus locSafe url = .ok loc ∧ reply = .response 303 [(py! "location", loc)] [] := by
  unfold redirectTo at h
  split at h
  · cases h
  · rename_i loc hl
    cases h
    exact ⟨loc, hl, rfl⟩

theorem quote_next : quotePlus noSafe (py! "next") = .ok (py! "next") := by decide +kernel

theorem parsePairBlank_quoted {k v k' v' : PyStr} (hk : quotePlus noSafe k = .ok k') (hv : quotePlus noSafe v = .ok v') :
    parsePairBlank (k' ++ 61 :: v') = some (k, v) := by
  have h61 : (61 : Nat) ∉ k' := by
    intro h
    rcases quotePlus_mem hk 61 h with h | h | h
    · cases h
    · cases h
    · revert h; decide
  unfold parsePairBlank
  rw [if_neg (by simp), splitOnce_append h61]
  dsimp only
  rw [unquotePlus_quotePlus hk, unquotePlus_quotePlus hv]

/-- Where a login with the parameter `next` ends. -/
theorem afterLogin_next {req : WebRequest} {url v : PyStr} (hq : quotePlus noSafe url = .ok v) (hne : url ≠ [])
    (h : req.query = py! "next" ++ 61 :: v) : afterLogin req = url := by
  have hp : queryParams req = [(py! "next", url)] := by
    unfold queryParams
    rw [h, splitOn_not_mem (quoted_no_amp quote_next hq), List.filterMap_cons, parsePairBlank_quoted quote_next hq]
    rfl
  unfold afterLogin
  rw [hp]
  cases url with
  | nil => exact absurd rfl hne
  | cons c s => rfl

/-- The redirect to the login page. -/
theorem login_location {site url u loc : PyStr} (hu : urlencode site [(py! "next", some url)] = .ok u)
    (hl : quotePlus locSafe u = .ok loc) (h1 : 63 ∉ site) (h2 : 35 ∉ site) :
    ∃ base v, quotePlus locSafe site = .ok base ∧ quotePlus noSafe url = .ok v ∧
      loc = base ++ py! "?" ++ (py! "next" ++ 61 :: v) ∧ urlQuery loc = py! "next" ++ 61 :: v := by
  obtain ⟨ps, hps, rfl⟩ := urlencode_ok_iff hu
  obtain ⟨a, b, ha, hb, rfl⟩ := quotePlus_split hl
  have hq := urlQuery_location hps ha rfl h1 h2
  rw [query_location hps] at hb
  cases hb
  have hv : ∃ v, quotePlus noSafe url = .ok v ∧ ps = [py! "next" ++ 61 :: v] := by
    unfold someEntries at hps
    simp only [List.filterMap_cons, Option.map_some, List.filterMap_nil, urlencodePairs, quote_next] at hps
    cases hv : quotePlus noSafe url with
    | error e => rw [hv] at hps; cases hps
    | ok v => rw [hv] at hps; cases hps; exact ⟨v, rfl, rfl⟩
  obtain ⟨v, hv, rfl⟩ := hv
  refine ⟨a, v, ha, hv, by simp [joinWith], ?_⟩
  simpa [joinWith] using hq

end Psion.Example
