import Verif.Spec.Web
import Verif.Example.AdapterLemmas

/-!
# The web layer of the example application: lemmas
-/

namespace Psion.Example

open Psion Spec

/-! ## Coroutines -/

/-- After the operations `h`, every operation that `p` performs satisfies `S`, and `p` can only end with a value that satisfies
`Q`. -/
def WWp {α : Type} (S : List WEv → WOp → Prop) (Q : List WEv → α → Prop) : List WEv → WProg α → Prop
  | h, .done a => Q h a
  | h, .op o k => S h o ∧ ∀ r : ORes o.Ans, WWp S Q (h ++ [⟨o, r⟩]) (k r)

section
variable {α β : Type} {S : List WEv → WOp → Prop}

theorem wwp_mono {Q Q' : List WEv → α → Prop} (hQ : ∀ h a, Q h a → Q' h a)
    (p : WProg α) : ∀ h, WWp S Q h p → WWp S Q' h p := by
  induction p with
  | done a => intro h hw; exact hQ h a hw
  | op o k ih => intro h hw; exact ⟨hw.1, fun r => ih r _ (hw.2 r)⟩

theorem wwp_bind {Q : List WEv → β → Prop} (f : α → WProg β) (p : WProg α) :
    ∀ h, WWp S Q h (WProg.bind p f) ↔ WWp S (fun h a => WWp S Q h (f a)) h p := by
  induction p with
  | done a => intro h; exact Iff.rfl
  | op o k ih =>
    intro h
    simp only [WProg.bind, WWp]
    exact and_congr Iff.rfl (forall_congr' fun r => ih r _)

theorem wwp_exec {Q : List WEv → α → Prop} {p : WProg α} {tr : List WEv} {a : α} (he : WExec p tr a) :
    ∀ h, WWp S Q h p → Q (h ++ tr) a := by
  induction he with
  | done a => intro h hw; simpa [WWp] using hw
  | op o k r tr a _ ih =>
    intro h hw
    have h2 := ih (h ++ [⟨o, r⟩]) (hw.2 r)
    simpa using h2

theorem wwp_partial {Q : List WEv → α → Prop} {p : WProg α} {tr : List WEv} (he : WPartial p tr) :
    ∀ h, WWp S Q h p → ∀ pre ev post, tr = pre ++ ev :: post → S (h ++ pre) ev.op := by
  induction he with
  | here p => intro h _ pre ev post heq; simp at heq
  | op o k r tr _ ih =>
    intro h hw pre ev post heq
    cases pre with
    | nil =>
      simp only [List.nil_append, List.cons.injEq] at heq
      rw [← heq.1, List.append_nil]
      exact hw.1
    | cons x pre =>
      simp only [List.cons_append, List.cons.injEq] at heq
      have h2 := ih (h ++ [⟨o, r⟩]) (hw.2 r) pre ev post heq.2
      rw [← heq.1]
      simpa using h2

theorem wpartial_prefix {p : WProg α} {tr tr' : List WEv} (h : WPartial p (tr ++ tr')) : WPartial p tr := by
  induction tr generalizing p with
  | nil => exact .here p
  | cons e tr ih =>
    cases h with
    | op o k r _ h => exact .op o k r tr (ih h)

theorem wexec_partial {p : WProg α} {tr : List WEv} {a : α} (h : WExec p tr a) : WPartial p tr := by
  induction h with
  | done a => exact .here _
  | op o k r tr a _ ih => exact .op o k r tr ih

/-- Calling the library: nothing but operations of the library. -/
theorem wwp_lib {Q : List WEv → ORes α → Prop} (hS : ∀ h o, S h (.lib o)) (p : P α) :
    ∀ h, (∀ h a, Q h a) → WWp S Q h (WP.lib p) := by
  induction p with
  | done a => intro h hQ; exact hQ h a
  | op o k ih => intro h hQ; exact ⟨hS h o, fun r => ih r _ hQ⟩

end

section
variable {α β : Type}

/-- How far a sequential composition can have got. -/
theorem wpartial_bind {f : α → WProg β} {p : WProg α} : ∀ {tr : List WEv}, WPartial (WProg.bind p f) tr →
    WPartial p tr ∨ ∃ t1 t2 a, tr = t1 ++ t2 ∧ WExec p t1 a ∧ WPartial (f a) t2 := by
  induction p with
  | done a => intro tr h; exact Or.inr ⟨[], tr, a, rfl, .done a, h⟩
  | op o k ih =>
    intro tr h
    cases h with
    | here => exact Or.inl (.here _)
    | op _ _ r tr h =>
      rcases ih r h with h | ⟨t1, t2, a, rfl, h1, h2⟩
      · exact Or.inl (.op o k r tr h)
      · exact Or.inr ⟨_ :: t1, t2, a, rfl, .op o k r t1 a h1, h2⟩

theorem libOf_append (a b : List WEv) : libOf (a ++ b) = libOf a ++ libOf b := by
  unfold libOf; rw [List.filterMap_append]

theorem wpartial_lib {p : P α} : ∀ {tr : List WEv}, WPartial (WP.lib p) tr → Partial p (libOf tr) := by
  induction p with
  | done a => intro tr h; cases h; exact .here _
  | op o k ih =>
    intro tr h
    cases h with
    | here => exact .here _
    | op _ _ r tr h => exact .op o k r (libOf tr) (ih r h)

theorem wexec_lib {p : P α} : ∀ {tr : List WEv} {a : ORes α}, WExec (WP.lib p) tr a → Exec p (libOf tr) a := by
  induction p with
  | done a => intro tr b h; cases h; exact .done _
  | op o k ih =>
    intro tr a h
    cases h with
    | op _ _ r tr a h => exact .op o k r (libOf tr) a (ih r h)

/-- A program without operations. -/
theorem wpartial_done {a : α} {tr : List WEv} (h : WPartial (.done a) tr) : tr = [] := by
  cases h; rfl

theorem wexec_done {a b : α} {tr : List WEv} (h : WExec (.done a) tr b) : tr = [] ∧ b = a := by
  cases h; exact ⟨rfl, rfl⟩

end

section
variable {α β : Type} {S : List WEv → WOp → Prop} {Q : List WEv → ORes β → Prop} {h : List WEv}

theorem wwp_seq {p : WP α} {f : α → WP β}
    (hp : WWp S (fun h r => match r with | .ok a => WWp S Q h (f a) | .error e => Q h (.error e)) h p) :
    WWp S Q h (WP.bind p f) := by
  unfold WP.bind
  rw [wwp_bind]
  refine wwp_mono ?_ p h hp
  intro h r hr
  cases r with
  | ok a => exact hr
  | error e => exact hr

theorem wwp_call {o : WOp} {f : o.Ans → WP β} (h1 : S h o) (h2 : ∀ a, WWp S Q (h ++ [⟨o, .ok a⟩]) (f a))
    (h3 : ∀ e, Q (h ++ [⟨o, .error e⟩]) (.error e)) : WWp S Q h (WP.bind (WP.call o) f) := by
  refine wwp_seq ⟨h1, ?_⟩
  intro r
  cases r with
  | ok a => exact h2 a
  | error e => exact h3 e

theorem wwp_lift {r : Res α} {f : α → WP β} (h2 : ∀ a, r = .ok a → WWp S Q h (f a))
    (h3 : ∀ e, r = .error e → Q h (.error (.py e))) : WWp S Q h (WP.bind (WP.lift r) f) := by
  refine wwp_seq ?_
  cases r with
  | ok a => exact h2 a rfl
  | error e => exact h3 e rfl

theorem wwp_libcall {p : P α} {f : α → WP β} (hS : ∀ h o, S h (.lib o))
    (h2 : ∀ h a, WWp S Q h (f a)) (h3 : ∀ h e, Q h (.error e)) : WWp S Q h (WP.bind (WP.lib p) f) := by
  refine wwp_seq (wwp_lib hS p h ?_)
  intro h r
  cases r with
  | ok a => exact h2 h a
  | error e => exact h3 h e

end

/-! ## What requests do -/

/-- What a request to the application may do. -/
def AppOp (req : WebRequest) (h : List WEv) : WOp → Prop
  | .lib _ => req.route = .authorize ∨ req.route = .token ∨ req.route = .revoke
  | .session sid uid => h = [] ∧ req.cookie = some ⟨uid, sid⟩
  | .saveSession sid uid => req.route = .login ∧ req.method = py! "POST" ∧
      (⟨.userByEmail req.form.email, .ok (some (uid, req.form.password))⟩ : WEv) ∈ h ∧ sid.length = 32
  | .deleteSessions uid | .deleteRefresh uid => req.route = .logout ∧ ∃ sid u, req.cookie = some ⟨uid, sid⟩ ∧
      (⟨.session sid uid, .ok (some (some u))⟩ : WEv) ∈ h
  | _ => True

/-- Programs without conditions on their outcome. -/
abbrev Ops (req : WebRequest) (h : List WEv) (p : WP Served) : Prop := WWp (AppOp req) (fun _ _ => True) h p

theorem ops_served (req : WebRequest) (h : List WEv) (r : Res Reply) : Ops req h (served r) := trivial

theorem ops_logout {req : WebRequest} {h : List WEv} {uid : PyStr} (f : Unit → WP Served) (b : Bool)
    (hS : ∀ h', h <+: h' → AppOp req h' (.deleteSessions uid)) (hf : ∀ h' x, Ops req h' (f x)) :
    Ops req h (WP.bind (if b then both (WP.call (.deleteRefresh uid)) (WP.call (.deleteSessions uid))
      else both (WP.call (.deleteSessions uid)) (WP.call (.deleteRefresh uid))) f) := by
  unfold Ops WP.bind
  rw [wwp_bind]
  cases b with
  | true =>
    simp only [if_true, both]
    rw [wwp_bind]
    refine ⟨hS h (List.prefix_refl h), fun r => ?_⟩
    show WWp _ _ _ (WProg.bind (WP.call (.deleteSessions uid)) _)
    rw [wwp_bind]
    refine ⟨hS _ (List.prefix_append _ _), fun s => ?_⟩
    cases r with
    | error e => trivial
    | ok x =>
      cases s with
      | error e => trivial
      | ok y => exact hf _ _
  | false =>
    simp only [both, Bool.false_eq_true, if_false]
    rw [wwp_bind]
    refine ⟨hS h (List.prefix_refl h), fun r => ?_⟩
    show WWp _ _ _ (WProg.bind (WP.call (.deleteRefresh uid)) _)
    rw [wwp_bind]
    refine ⟨hS _ (List.prefix_append _ _), fun s => ?_⟩
    cases r with
    | error e => trivial
    | ok x =>
      cases s with
      | error e => trivial
      | ok y => exact hf _ _

theorem ops_loginPost (emailOk : PyStr → Bool) {req : WebRequest} (h : List WEv) (user : Option User)
    (hr : req.route = .login) (hm : req.method = py! "POST") : Ops req h (loginPost emailOk req user) := by
  unfold loginPost
  cases user with
  | some u => trivial
  | none =>
    dsimp only
    split
    · trivial
    · refine wwp_call trivial (fun found => ?_) (fun _ => trivial)
      cases found with
      | none => trivial
      | some x =>
        obtain ⟨uid, pw⟩ := x
        dsimp only
        split
        · trivial
        · rename_i hpw
          have hpw : pw = req.form.password := Decidable.of_not_not hpw
          subst hpw
          refine wwp_call trivial (fun session => ?_) (fun _ => trivial)
          cases session with
          | some sid => trivial
          | none =>
            refine wwp_call trivial (fun choices => ?_) (fun _ => trivial)
            refine wwp_lift (fun sid hsid => ?_) (fun _ _ => trivial)
            refine wwp_call ⟨hr, hm, by simp, ?_⟩ (fun _ => trivial) (fun _ => trivial)
            unfold secretToken at hsid
            split at hsid
            · cases hsid
            · cases hsid
              rw [List.length_map]
              exact choices.property

theorem ops_view (env : OEnv) (table : Hooks) (emailOk : PyStr → Bool) {req : WebRequest} (h : List WEv)
    (user : Option User) (hu : ∀ u, user = some u → ∃ sid uid, req.cookie = some ⟨uid, sid⟩ ∧
      (⟨.session sid uid, .ok (some (some u))⟩ : WEv) ∈ h) :
    Ops req h (view env table emailOk req user) := by
  unfold view
  cases hr : req.route with
  | home => trivial
  | error => trivial
  | login =>
    dsimp only
    split
    · unfold loginGet
      cases user <;> trivial
    · split
      · rename_i hp
        exact ops_loginPost emailOk h user hr (of_decide_eq_true hp)
      · trivial
  | logout =>
    dsimp only
    split
    · unfold logoutGet
      cases user with
      | none => trivial
      | some u =>
        obtain ⟨sid, uid, hc, hm⟩ := hu u rfl
        dsimp only
        rw [hc]
        dsimp only
        refine wwp_call trivial (fun b => ?_) (fun _ => trivial)
        refine ops_logout _ b ?_ (fun _ _ => trivial)
        intro h' hp
        exact ⟨hr, sid, u, hc, hp.subset (by simp [hm])⟩
    · split <;> trivial
  | authorize =>
    dsimp only
    split
    · unfold authorizeGet
      cases user with
      | none =>
        dsimp only
        split <;> trivial
      | some u =>
        refine wwp_lift (fun r _ => ?_) (fun _ _ => trivial)
        exact wwp_libcall (fun _ _ => Or.inl hr) (fun _ _ => trivial) (fun _ _ => trivial)
    · trivial
  | revoke =>
    dsimp only
    split
    · refine wwp_lift (fun r _ => ?_) (fun _ _ => trivial)
      exact wwp_libcall (fun _ _ => Or.inr (Or.inr hr)) (fun _ _ => trivial) (fun _ _ => trivial)
    · trivial
  | token =>
    dsimp only
    split
    · refine wwp_lift (fun r _ => ?_) (fun _ _ => trivial)
      exact wwp_libcall (fun _ _ => Or.inr (Or.inl hr)) (fun _ _ => trivial) (fun _ _ => trivial)
    · trivial

theorem ops_app (env : OEnv) (table : Hooks) (emailOk : PyStr → Bool) (req : WebRequest) :
    Ops req [] (app env table emailOk req) := by
  unfold app
  split
  · exact ops_view env table emailOk [] none nofun
  · rename_i c hc
    refine wwp_call ⟨rfl, hc⟩ (fun data => ?_) (fun _ => trivial)
    cases data with
    | none => exact ops_view env table emailOk _ none nofun
    | some x =>
      cases x with
      | none => trivial
      | some u =>
        refine ops_view env table emailOk _ (some u) ?_
        rintro _ ⟨⟩
        exact ⟨c.sessionId, c.userId, hc, by simp⟩

/-- The operations of a request. -/
theorem app_op {env : OEnv} {table : Hooks} {emailOk : PyStr → Bool} {req : WebRequest} {pre post : List WEv} {ev : WEv}
    (h : WPartial (app env table emailOk req) (pre ++ ev :: post)) : AppOp req pre ev.op := by
  have := wwp_partial h [] (ops_app env table emailOk req) pre ev post rfl
  simpa using this

/-! ## How far a request got -/

theorem wpartial_call {o : WOp} {β : Type} {f : o.Ans → WP β} {tr : List WEv} (h : WPartial (WP.bind (WP.call o) f) tr) :
    tr = [] ∨ (∃ e, tr = [⟨o, .error e⟩]) ∨ ∃ a t, tr = ⟨o, .ok a⟩ :: t ∧ WPartial (f a) t := by
  cases h with
  | here => exact Or.inl rfl
  | op _ _ r t h =>
    cases r with
    | error e => exact Or.inr (Or.inl ⟨e, by rw [wpartial_done h]⟩)
    | ok a => exact Or.inr (Or.inr ⟨a, t, rfl, h⟩)

theorem wpartial_lift {α β : Type} {r : Res α} {f : α → WP β} {tr : List WEv} (h : WPartial (WP.bind (WP.lift r) f) tr) :
    tr = [] ∨ ∃ a, r = .ok a ∧ WPartial (f a) tr := by
  cases r with
  | error e => exact Or.inl (wpartial_done h)
  | ok a => exact Or.inr ⟨a, rfl, h⟩

theorem wpartial_libcall {α β : Type} {p : P α} {f : α → WP β} {tr : List WEv} (hf : ∀ a, ∃ b, f a = .done b)
    (h : WPartial (WP.bind (WP.lib p) f) tr) : Partial p (libOf tr) := by
  rcases wpartial_bind h with h | ⟨t1, t2, a, rfl, h1, h2⟩
  · exact wpartial_lib h
  · have : t2 = [] := by
      cases a with
      | error e => exact wpartial_done h2
      | ok a =>
        obtain ⟨b, hb⟩ := hf a
        dsimp only at h2
        rw [hb] at h2
        exact wpartial_done h2
    subst this
    rw [List.append_nil]
    exact exec_partial (wexec_lib h1)

/-- What the library is called for. -/
def LibCall (env : OEnv) (table : Hooks) (req : WebRequest) (tr : List WEv) : Call → Prop
  | .authorize p r => p = exProvider ∧ req.route = .authorize ∧ Partial (p.authorize env table r) (libOf tr) ∧
      ∃ c u t, req.cookie = some c ∧ tr = ⟨.session c.sessionId c.userId, .ok (some (some u))⟩ :: t ∧
        createRequest req (some u) = .ok r ∧ (req.method = py! "GET" ∨ req.method = py! "HEAD")
  | .token p r => p = exProvider ∧ req.route = .token ∧ Partial (p.token env table r) (libOf tr) ∧
      ∃ user, createRequest req user = .ok r
  | .revoke p r => p = exProvider ∧ req.route = .revoke ∧ Partial (p.revoke env r) (libOf tr) ∧
      ∃ user, createRequest req user = .ok r
  | .consent _ _ => False

theorem libOf_nil_of {tr : List WEv} (h : ∀ ev ∈ tr, ∀ o, ev.op ≠ .lib o) : libOf tr = [] := by
  unfold libOf
  rw [List.filterMap_eq_nil_iff]
  rintro ⟨o, ans⟩ hm
  cases o with
  | lib o => exact absurd rfl (h _ hm o)
  | _ => rfl

theorem view_call {env : OEnv} {table : Hooks} {emailOk : PyStr → Bool} {req : WebRequest} {user : Option User} {tr : List WEv}
    (hroute : req.route = .authorize ∨ req.route = .token ∨ req.route = .revoke)
    (h : WPartial (view env table emailOk req user) tr) :
    libOf tr = [] ∨
    (req.route = .authorize ∧ ∃ u r, user = some u ∧ createRequest req user = .ok r ∧
      Partial (exProvider.authorize env table r) (libOf tr) ∧ (req.method = py! "GET" ∨ req.method = py! "HEAD")) ∨
    (req.route = .token ∧ ∃ r, createRequest req user = .ok r ∧ Partial (exProvider.token env table r) (libOf tr)) ∨
    (req.route = .revoke ∧ ∃ r, createRequest req user = .ok r ∧ Partial (exProvider.revoke env r) (libOf tr)) := by
  have done : ∀ {x : Res Reply}, WPartial (served x) tr → libOf tr = [] := by
    intro x hx
    rw [wpartial_done hx]
    rfl
  unfold view at h
  rcases hroute with hr | hr | hr
  · rw [hr] at h
    dsimp only at h
    split at h
    · rename_i hget
      unfold authorizeGet at h
      cases user with
      | none =>
        dsimp only at h
        split at h <;> exact Or.inl (done (x := .error .keyErr) (by rw [wpartial_done h]; exact .here _))
      | some u =>
        rcases wpartial_lift h with rfl | ⟨r, h1, h2⟩
        · exact Or.inl rfl
        · exact Or.inr (Or.inl ⟨hr, u, r, rfl, h1, wpartial_libcall (fun _ => ⟨_, rfl⟩) h2, of_decide_eq_true hget⟩)
    · exact Or.inl (done h)
  · rw [hr] at h
    dsimp only at h
    split at h
    · rcases wpartial_lift h with rfl | ⟨r, h1, h2⟩
      · exact Or.inl rfl
      · exact Or.inr (Or.inr (Or.inl ⟨hr, r, h1, wpartial_libcall (fun _ => ⟨_, rfl⟩) h2⟩))
    · exact Or.inl (done h)
  · rw [hr] at h
    dsimp only at h
    split at h
    · rcases wpartial_lift h with rfl | ⟨r, h1, h2⟩
      · exact Or.inl rfl
      · exact Or.inr (Or.inr (Or.inr ⟨hr, r, h1, wpartial_libcall (fun _ => ⟨_, rfl⟩) h2⟩))
    · exact Or.inl (done h)

/-- What a request does with the library: nothing, or one call of an endpoint. -/
theorem app_call {env : OEnv} {table : Hooks} {emailOk : PyStr → Bool} {req : WebRequest} {tr : List WEv}
    (h : WPartial (app env table emailOk req) tr) : libOf tr = [] ∨ ∃ call, LibCall env table req tr call := by
  rcases Classical.em (¬ (req.route = .authorize ∨ req.route = .token ∨ req.route = .revoke)) with hroute | hroute
  · left
    apply libOf_nil_of
    intro ev hm o ho
    obtain ⟨pre, post, rfl⟩ := List.append_of_mem hm
    have := app_op h
    rw [ho] at this
    exact hroute this
  · replace hroute := Decidable.of_not_not hroute
    have noUser : WPartial (view env table emailOk req none) tr → libOf tr = [] ∨ ∃ call, LibCall env table req tr call := by
      intro h
      rcases view_call hroute h with h | ⟨hr, u, r, hu, -⟩ | ⟨hr, r, h1, h2⟩ | ⟨hr, r, h1, h2⟩
      · exact Or.inl h
      · cases hu
      · exact Or.inr ⟨.token exProvider r, rfl, hr, h2, none, h1⟩
      · exact Or.inr ⟨.revoke exProvider r, rfl, hr, h2, none, h1⟩
    unfold app at h
    split at h
    · exact noUser h
    · rename_i c hc
      rcases wpartial_call h with rfl | ⟨e, rfl⟩ | ⟨a, t, rfl, hv⟩
      · exact Or.inl rfl
      · exact Or.inl rfl
      · cases a with
        | none =>
          rcases view_call hroute hv with h | ⟨hr, u, r, hu, -⟩ | ⟨hr, r, h1, h2⟩ | ⟨hr, r, h1, h2⟩
          · exact Or.inl h
          · cases hu
          · exact Or.inr ⟨.token exProvider r, rfl, hr, h2, none, h1⟩
          · exact Or.inr ⟨.revoke exProvider r, rfl, hr, h2, none, h1⟩
        | some x =>
          cases x with
          | none => rw [wpartial_done hv]; exact Or.inl rfl
          | some u =>
            rcases view_call hroute hv with h | ⟨hr, u, r, hu, h1, h2, h3⟩ | ⟨hr, r, h1, h2⟩ | ⟨hr, r, h1, h2⟩
            · exact Or.inl h
            · cases hu
              exact Or.inr ⟨.authorize exProvider r, rfl, hr, h2, c, u, t, hc, rfl, h1, h3⟩
            · exact Or.inr ⟨.token exProvider r, rfl, hr, h2, _, h1⟩
            · exact Or.inr ⟨.revoke exProvider r, rfl, hr, h2, _, h1⟩

/-! ## Histories -/

theorem ofWeb_append (i : Nat) (a b : List WStep) : ofWeb i (a ++ b) = ofWeb i a ++ ofWeb i b := by
  unfold ofWeb; rw [List.filterMap_append]

theorem ofWeb_split (i : Nat) (pre post : List WStep) (ev : WEv) :
    ofWeb i (pre ++ (i, ev) :: post) = ofWeb i pre ++ ev :: ofWeb i post := by
  rw [ofWeb_append]
  simp [ofWeb]

theorem mem_ofWeb {i : Nat} {h : List WStep} {ev : WEv} : ev ∈ ofWeb i h ↔ (i, ev) ∈ h := by
  unfold ofWeb
  rw [List.mem_filterMap]
  constructor
  · rintro ⟨⟨j, e⟩, hm, he⟩
    by_cases hj : j = i
    · simp only [hj, if_true, Option.some.injEq] at he
      rw [← he, ← hj]; exact hm
    · simp [hj] at he
  · intro hm
    exact ⟨_, hm, by simp⟩

theorem whistory_prefix {env : OEnv} {table : Hooks} {emailOk : PyStr → Bool} {reqs : Nat → WebRequest} {a b : List WStep}
    (h : WHistory env table emailOk reqs (a ++ b)) : WHistory env table emailOk reqs a := by
  intro i
  have := h i
  rw [ofWeb_append] at this
  exact wpartial_prefix this

theorem libSteps_append (a b : List WStep) : libSteps (a ++ b) = libSteps a ++ libSteps b := by
  unfold libSteps; rw [List.filterMap_append]

theorem ofRequest_libSteps (i : Nat) (h : List WStep) : ofRequest i (libSteps h) = libOf (ofWeb i h) := by
  induction h with
  | nil => rfl
  | cons s h ih =>
    obtain ⟨j, o, ans⟩ := s
    by_cases hj : j = i
    · subst hj
      cases o with
      | lib o =>
        show ofRequest j ((j, ⟨o, ans⟩) :: libSteps h) = _
        rw [show ofWeb j ((j, ⟨.lib o, ans⟩) :: h) = ⟨.lib o, ans⟩ :: ofWeb j h by simp [ofWeb]]
        rw [show ofRequest j ((j, ⟨o, ans⟩) :: libSteps h) = ⟨o, ans⟩ :: ofRequest j (libSteps h) by simp [ofRequest], ih]
        rfl
      | _ => simpa [ofWeb, libSteps, libOf] using ih
    · have hw : ofWeb i ((j, ⟨o, ans⟩) :: h) = ofWeb i h := by simp [ofWeb, hj]
      rw [hw]
      cases o with
      | lib o =>
        show ofRequest i ((j, ⟨o, ans⟩) :: libSteps h) = _
        rw [show ofRequest i ((j, ⟨o, ans⟩) :: libSteps h) = ofRequest i (libSteps h) by simp [ofRequest, hj], ih]
      | _ => exact ih

theorem mem_libSteps {i : Nat} {o : Op} {ans : ORes o.Ans} {h : List WStep} :
    (i, (⟨o, ans⟩ : Ev)) ∈ libSteps h ↔ (i, (⟨.lib o, ans⟩ : WEv)) ∈ h := by
  rw [← mem_ofRequest, ofRequest_libSteps, ← mem_ofWeb]
  unfold libOf
  rw [List.mem_filterMap]
  constructor
  · rintro ⟨⟨o', ans'⟩, hm, he⟩
    cases o' with
    | lib o' => cases he; exact hm
    | _ => cases he
  · intro hm
    exact ⟨_, hm, rfl⟩

/-! ## Runs -/

theorem outside_refl (s : Store) : Outside s s := ⟨.refl _, .refl _⟩

theorem outside_logout (s : Store) (uid : PyStr) : Outside s (logout s uid) := ⟨.refl _, List.filter_sublist⟩

/-- What an operation does to the tables of the library. -/
theorem weffect_db {env : OEnv} {w w' : WStore} {ev : WEv} (h : WEffect env w ev w') :
    (∃ o ans, ev = ⟨.lib o, ans⟩ ∧ ExStep env w.db ⟨o, ans⟩ w'.db) ∨
      (∀ o, ev.op ≠ .lib o) ∧ Outside w.db w'.db := by
  obtain ⟨o, ans⟩ := ev
  obtain ⟨d, h⟩ := h
  have key : ∀ w' : WStore, w' = w ∨ w' = (wOp env d w o).1 → (∀ x, o ≠ .lib x) → Outside w.db w'.db := by
    rintro w' (rfl | rfl) hne
    · exact outside_refl _
    · cases o with
      | lib o => exact absurd rfl (hne o)
      | saveSession sid uid =>
        simp only [wOp]
        split <;> exact outside_refl _
      | deleteRefresh uid => exact outside_logout _ _
      | _ => exact outside_refl _
  cases o with
  | lib o =>
    refine Or.inl ⟨o, ans, rfl, d, ?_⟩
    rcases h with h | ⟨hn, h⟩
    · left
      have h1 := congrArg Prod.fst h
      have h2 := congrArg Prod.snd h
      simp only [wOp] at h1 h2
      subst h1
      exact Prod.ext rfl h2
    · refine Or.inr ⟨hn, ?_⟩
      rcases h with rfl | rfl
      · exact Or.inl rfl
      · exact Or.inr rfl
  | _ =>
    refine Or.inr ⟨fun _ => WOp.noConfusion, ?_⟩
    apply key w' _ (fun _ => WOp.noConfusion)
    rcases h with h | ⟨-, h⟩
    · exact Or.inr (congrArg Prod.fst h).symm
    · exact h

/-- The library sees a run of the adapter. -/
theorem wrun_lib {env : OEnv} {w w' : WStore} {h : List WStep} (hr : WRun env w h w') :
    ExRun env w.db (libSteps h) w'.db := by
  induction hr with
  | nil w => exact .nil _
  | step w w1 w2 i ev h hs hr ih =>
    rcases weffect_db hs with ⟨o, ans, rfl, hs'⟩ | ⟨hne, ho⟩
    · exact .step _ _ _ _ _ _ hs' ih
    · obtain ⟨o, ans⟩ := ev
      cases o with
      | lib o => exact absurd rfl (hne o)
      | _ => exact .outside _ _ _ _ ho ih
  | outside w w1 w2 h ho hr ih => exact .outside _ _ _ _ ho.db ih

theorem wev_ne {a b : WEv} (h : a.op ≠ b.op) : a ≠ b := fun e => h (congrArg WEv.op e)

/-- Sessions only appear when they are saved. -/
theorem weffect_sessions {env : OEnv} {w w' : WStore} {ev : WEv} (h : WEffect env w ev w') {s : PyStr × PyStr}
    (hs : s ∈ w'.sessions) : s ∈ w.sessions ∧ ev ≠ ⟨.deleteSessions s.2, .ok ()⟩ ∨ ∃ ans, ev = ⟨.saveSession s.1 s.2, ans⟩ := by
  obtain ⟨o, ans⟩ := ev
  obtain ⟨d, h⟩ := h
  have hd : w' = w ∨ w' = (wOp env d w o).1 := by
    rcases h with h | ⟨-, h⟩
    · exact Or.inr (congrArg Prod.fst h).symm
    · exact h
  cases o with
  | saveSession sid uid =>
    rcases hd with rfl | rfl
    · exact Or.inl ⟨hs, wev_ne WOp.noConfusion⟩
    · simp only [wOp] at hs
      split at hs
      · rcases List.mem_cons.mp hs with rfl | hs
        · exact Or.inr ⟨ans, rfl⟩
        · exact Or.inl ⟨hs, wev_ne WOp.noConfusion⟩
      · exact Or.inl ⟨hs, wev_ne WOp.noConfusion⟩
  | deleteSessions uid =>
    left
    rcases h with h | ⟨⟨n, hn⟩, h⟩
    · have h1 : _ = w' := congrArg Prod.fst h
      subst h1
      obtain ⟨h1, h2⟩ := List.mem_filter.mp hs
      refine ⟨h1, ?_⟩
      rintro he
      cases he
      exact absurd rfl (of_decide_eq_true h2)
    · dsimp only at hn
      subst hn
      refine ⟨?_, fun e => by cases e⟩
      rcases h with rfl | rfl
      · exact hs
      · exact (List.mem_filter.mp hs).1
  | _ =>
    left
    refine ⟨?_, wev_ne WOp.noConfusion⟩
    rcases hd with rfl | rfl
    · exact hs
    · exact hs

/-- A session in the table is an old one, or was saved; and since then no logout of its user was carried out. -/
theorem wrun_sessions {env : OEnv} {w w' : WStore} {h : List WStep} (hr : WRun env w h w') {s : PyStr × PyStr}
    (hs : s ∈ w'.sessions) :
    (s ∈ w.sessions ∧ ∀ k, (k, (⟨.deleteSessions s.2, .ok ()⟩ : WEv)) ∉ h) ∨
      ∃ a j ans b, h = a ++ (j, ⟨.saveSession s.1 s.2, ans⟩) :: b ∧
        ∀ k, (k, (⟨.deleteSessions s.2, .ok ()⟩ : WEv)) ∉ b := by
  induction hr with
  | nil w => exact Or.inl ⟨hs, nofun⟩
  | step w w1 w2 i ev h he hr ih =>
    rcases ih hs with ⟨h1, h2⟩ | ⟨a, j, ans, b, rfl, h2⟩
    · rcases weffect_sessions he h1 with ⟨h3, h4⟩ | ⟨ans, rfl⟩
      · refine Or.inl ⟨h3, fun k hk => ?_⟩
        rcases List.mem_cons.mp hk with hk | hk
        · exact h4 (Prod.mk.inj hk).2.symm
        · exact h2 k hk
      · exact Or.inr ⟨[], i, ans, h, rfl, h2⟩
    · exact Or.inr ⟨(i, ev) :: a, j, ans, b, rfl, h2⟩
  | outside w w1 w2 h ho hr ih =>
    rcases ih hs with ⟨h1, h2⟩ | h'
    · exact Or.inl ⟨ho.sessions.mem h1, h2⟩
    · exact Or.inr h'

/-- A run can be cut anywhere. -/
theorem wrun_split {env : OEnv} {w w' : WStore} {a b : List WStep} (hr : WRun env w (a ++ b) w') :
    ∃ m, WRun env w a m ∧ WRun env m b w' := by
  generalize hab : a ++ b = h at hr
  induction hr generalizing a with
  | nil w =>
    obtain ⟨rfl, rfl⟩ := List.append_eq_nil_iff.mp hab
    exact ⟨w, .nil w, .nil w⟩
  | step w w1 w2 i ev h hs hr ih =>
    cases a with
    | nil =>
      dsimp only [List.nil_append] at hab
      subst hab
      exact ⟨w, .nil w, .step w w1 w2 i ev h hs hr⟩
    | cons x a =>
      obtain ⟨rfl, hab'⟩ := List.cons.inj hab
      obtain ⟨m, h1, h2⟩ := ih hab'
      exact ⟨m, .step w w1 m i ev a hs h1, h2⟩
  | outside w w1 w2 h ho hr ih =>
    obtain ⟨m, h1, h2⟩ := ih hab
    exact ⟨m, .outside w w1 m a ho h1, h2⟩

theorem wrun_trans {env : OEnv} {w m w' : WStore} {a b : List WStep} (h1 : WRun env w a m) (h2 : WRun env m b w') :
    WRun env w (a ++ b) w' := by
  induction h1 with
  | nil w => exact h2
  | step w w1 w2 i ev h hs hr ih => exact .step _ _ _ _ _ _ hs (ih h2)
  | outside w w1 w2 h ho hr ih => exact .outside _ _ _ _ ho (ih h2)

/-- The state in which an event of a run takes place. -/
theorem wrun_at {env : OEnv} {w w' : WStore} {a b : List WStep} {i : Nat} {ev : WEv}
    (hr : WRun env w (a ++ (i, ev) :: b) w') :
    ∃ m m', WRun env w a m ∧ WEffect env m ev m' ∧ WRun env m' b w' := by
  obtain ⟨m, h1, h2⟩ := wrun_split hr
  clear hr
  generalize hb : (i, ev) :: b = h at h2
  induction h2 generalizing a with
  | nil s => cases hb
  | step m m' s2 j ev' h hs hr' ih =>
    obtain ⟨h0, rfl⟩ := List.cons.inj hb
    cases h0
    exact ⟨m, m', h1, hs, hr'⟩
  | outside m m1 s2 h ho hr' ih =>
    have := wrun_trans h1 (.outside _ _ _ _ ho (.nil m1))
    rw [List.append_nil] at this
    exact ih this hb

end Psion.Example
