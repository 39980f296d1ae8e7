import Verif.OAuth.SecretLemmas
import Verif.Example.WebAnswer

/-!
# Secrecy of client secrets and passwords in the example application: lemmas
-/

namespace Psion.Example

open Psion Spec

variable {α β : Type} {σ : PyStr → Option PyStr → Option PyStr} {π : PyStr → PyStr → PyStr}

/-! ## Requests -/

/-- Every execution of `p` is one of `q` in the other world. -/
def WMoves (σ : PyStr → Option PyStr → Option PyStr) (π : PyStr → PyStr → PyStr) (p q : WProg α) : Prop :=
  ∀ tr a, WExec p tr a → WExec q (tr.map (otherWEv σ π)) a

theorem wexec_bind_intro {f : α → WProg β} {p : WProg α} {t1 : List WEv} {a : α} (h : WExec p t1 a) : ∀ {t2 : List WEv} {b : β},
    WExec (f a) t2 b → WExec (WProg.bind p f) (t1 ++ t2) b := by
  induction h with
  | done a => exact fun h => h
  | op o k r tr a _ ih => exact fun h => .op o _ r _ _ (ih h)

theorem wmoves_done (a : α) : WMoves σ π (.done a) (.done a) := by
  intro tr b h
  obtain ⟨rfl, rfl⟩ := wexec_done h
  exact .done _

theorem wmoves_prog {p q : WProg α} {k k' : α → WProg β} (h1 : WMoves σ π p q) (h2 : ∀ a, WMoves σ π (k a) (k' a)) :
    WMoves σ π (WProg.bind p k) (WProg.bind q k') := by
  intro tr b h
  obtain ⟨t1, t2, a, rfl, hp, hk⟩ := wexec_bind h
  rw [List.map_append]
  exact wexec_bind_intro (h1 _ _ hp) (h2 _ _ _ hk)

theorem wmoves_bind {p q : WP α} {k k' : α → WP β} (h1 : WMoves σ π p q) (h2 : ∀ a, WMoves σ π (k a) (k' a)) :
    WMoves σ π (WP.bind p k) (WP.bind q k') := by
  refine wmoves_prog h1 ?_
  intro a
  cases a with
  | ok a => exact h2 a
  | error e => exact wmoves_done _

theorem wmoves_call {o : WOp} (h : ∀ r, otherWEv σ π ⟨o, r⟩ = ⟨o, r⟩) : WMoves σ π (WP.call o) (WP.call o) := by
  intro tr a hx
  unfold WP.call at hx
  cases hx with
  | op _ _ r t _ hx =>
    obtain ⟨rfl, rfl⟩ := wexec_done hx
    rw [List.map_cons, h]
    exact .op _ _ _ _ _ (.done _)

theorem wmoves_ite {c : Prop} [Decidable c] {p q p' q' : WProg α} (h1 : c → WMoves σ π p q) (h2 : ¬ c → WMoves σ π p' q') :
    WMoves σ π (if c then p else p') (if c then q else q') := by
  by_cases h : c
  · rw [if_pos h, if_pos h]; exact h1 h
  · rw [if_neg h, if_neg h]; exact h2 h

theorem wmoves_lib {p q : P α} : (∀ tr a, Exec p tr a → Exec q (tr.map (otherEv σ)) a) → WMoves σ π (WP.lib p) (WP.lib q) := by
  intro h tr a hx
  obtain ⟨t, rfl, hp⟩ : ∃ t : List Ev, tr = t.map (fun ev => ⟨.lib ev.op, ev.ans⟩) ∧ Exec p t a := by
    clear h
    induction p generalizing tr with
    | done b =>
      obtain ⟨rfl, rfl⟩ := wexec_done hx
      exact ⟨[], rfl, .done _⟩
    | op o k ih =>
      cases hx with
      | op _ _ r t _ hx =>
        obtain ⟨t', rfl, hp⟩ := ih r _ hx
        exact ⟨⟨o, r⟩ :: t', rfl, .op _ _ _ _ _ hp⟩
  have back : ∀ {q : P α} {t : List Ev} {a : ORes α}, Exec q t a →
      WExec (WP.lib q) (t.map (fun ev => (⟨.lib ev.op, ev.ans⟩ : WEv))) a := by
    intro q t a h
    induction h with
    | done a => exact .done _
    | op o k r tr a _ ih => exact .op _ _ _ _ _ ih
  have := back (h _ _ hp)
  rw [List.map_map] at this ⊢
  exact this

theorem wmoves_served (r : Res Reply) : WMoves σ π (served r) (served r) := wmoves_done _

theorem wmoves_loginPost (emailOk : PyStr → Bool) {req : WebRequest} (hg : SameGuesses σ π req) (user : Option User) :
    WMoves σ π (loginPost emailOk req user) (loginPost emailOk req user) := by
  unfold loginPost
  cases user with
  | some u => exact wmoves_served _
  | none =>
    refine wmoves_ite (fun _ => wmoves_served _) (fun _ => ?_)
    intro tr a h
    obtain ⟨t1, t2, found, rfl, hp, hk⟩ := wexec_bind h
    rw [List.map_append]
    unfold WP.call at hp
    cases hp with
    | op _ _ r t _ hp =>
      obtain ⟨rfl, hf⟩ := wexec_done hp
      subst hf
      refine wexec_bind_intro (a := Except.map (Option.map (fun x => (x.1, π x.1 x.2))) found) (.op _ _ _ _ _ (.done _)) ?_
      revert hk
      cases found with
      | error e => exact wmoves_done _ _ _
      | ok found =>
        cases found with
        | none => exact wmoves_served _ _ _
        | some x =>
          obtain ⟨uid, pw⟩ := x
          dsimp only [Except.map, Option.map]
          have h1 : (π uid pw ≠ req.form.password) ↔ pw ≠ req.form.password := not_congr (hg.password _ _)
          by_cases hne : pw ≠ req.form.password
          · rw [if_pos hne, if_pos (h1.mpr hne)]
            exact wmoves_served _ _ _
          · rw [if_neg hne, if_neg (fun h => hne (h1.mp h))]
            refine wmoves_bind (wmoves_call (fun _ => rfl)) ?_ _ _
            intro session
            cases session with
            | some sid => exact wmoves_done _
            | none =>
              refine wmoves_bind (wmoves_call (fun _ => rfl)) (fun choices => ?_)
              refine wmoves_bind (wmoves_done _) (fun sid => ?_)
              exact wmoves_bind (wmoves_call (fun _ => rfl)) (fun _ => wmoves_done _)

theorem wmoves_both {a b : WP Unit} (ha : WMoves σ π a a) (hb : WMoves σ π b b) : WMoves σ π (both a b) (both a b) :=
  wmoves_prog ha (fun _ => wmoves_prog hb (fun _ => wmoves_done _))

theorem wmoves_logoutGet (req : WebRequest) (user : Option User) : WMoves σ π (logoutGet req user) (logoutGet req user) := by
  unfold logoutGet
  cases user with
  | none => exact wmoves_served _
  | some u =>
    cases req.cookie with
    | none => exact wmoves_done _
    | some c =>
      refine wmoves_bind (wmoves_call (fun _ => rfl)) (fun b => ?_)
      refine wmoves_bind ?_ (fun _ => wmoves_served _)
      exact wmoves_ite (fun _ => wmoves_both (wmoves_call (fun _ => rfl)) (wmoves_call (fun _ => rfl)))
        (fun _ => wmoves_both (wmoves_call (fun _ => rfl)) (wmoves_call (fun _ => rfl)))

/-- A view that calls an endpoint of the library. -/
theorem wmoves_endpoint {req : WebRequest} {user : Option User} {p : Request → P α} {g : α → Option Response}
    (h : ∀ r, createRequest req user = .ok r → Moves σ id (p r) (p r)) :
    WMoves σ π ((WP.lift (createRequest req user)).bind fun r => (WP.lib (p r)).bind fun x => served (createResponse (g x)))
      ((WP.lift (createRequest req user)).bind fun r => (WP.lib (p r)).bind fun x => served (createResponse (g x))) := by
  cases hr : createRequest req user with
  | error e => exact wmoves_done _
  | ok r =>
    show WMoves σ π ((WP.lib (p r)).bind fun x => served (createResponse (g x)))
      ((WP.lib (p r)).bind fun x => served (createResponse (g x)))
    exact wmoves_bind (wmoves_lib (fun _ _ hx => moves_exec (h r hr) hx)) (fun x => wmoves_served _)

theorem wmoves_view {table : Hooks} (hb : SecretBlind σ table) (env : OEnv) (emailOk : PyStr → Bool) {req : WebRequest}
    (hg : SameGuesses σ π req) (user : Option User) :
    WMoves σ π (view env table emailOk req user) (view env table emailOk req user) := by
  unfold view
  cases req.route with
  | home => exact wmoves_served _
  | login =>
    refine wmoves_ite (fun _ => ?_) (fun _ => wmoves_ite (fun _ => wmoves_loginPost emailOk hg user) (fun _ => wmoves_served _))
    unfold loginGet
    cases user <;> exact wmoves_served _
  | logout =>
    exact wmoves_ite (fun _ => wmoves_logoutGet req user)
      (fun _ => wmoves_ite (fun _ => wmoves_served _) (fun _ => wmoves_served _))
  | authorize =>
    refine wmoves_ite (fun _ => ?_) (fun _ => wmoves_served _)
    unfold authorizeGet
    cases user with
    | none =>
      dsimp only
      split
      · exact wmoves_done _
      · exact wmoves_served _
    | some u =>
      exact wmoves_endpoint (g := some) (p := exProvider.authorize env table)
        (fun r _ => moves_authorize (objects_blind hb env exProvider) _ _)
  | error => exact wmoves_served _
  | revoke =>
    refine wmoves_ite (fun _ => ?_) (fun _ => wmoves_served _)
    exact wmoves_endpoint (g := fun x => x) (p := exProvider.revoke env) (fun r hr => moves_revokeEndpoint env (hg.secret user r hr))
  | token =>
    refine wmoves_ite (fun _ => ?_) (fun _ => wmoves_served _)
    exact wmoves_endpoint (g := some) (p := exProvider.token env table)
      (fun r hr => moves_token (objects_blind hb env exProvider) env (hg.secret user r hr))

theorem wmoves_app {table : Hooks} (hb : SecretBlind σ table) (env : OEnv) (emailOk : PyStr → Bool) {req : WebRequest}
    (hg : SameGuesses σ π req) : WMoves σ π (app env table emailOk req) (app env table emailOk req) := by
  unfold app
  cases req.cookie with
  | none => exact wmoves_view hb env emailOk hg _
  | some c =>
    refine wmoves_bind (wmoves_call (fun _ => rfl)) (fun data => ?_)
    cases data with
    | none => exact wmoves_view hb env emailOk hg _
    | some u =>
      cases u with
      | none => exact wmoves_served _
      | some u => exact wmoves_view hb env emailOk hg _

/-- Whatever has been done so far can be completed. -/
theorem wpartial_extend {p : WProg α} {tr : List WEv} (h : WPartial p tr) : ∃ t a, WExec p (tr ++ t) a := by
  induction h with
  | here p =>
    induction p with
    | done a => exact ⟨[], a, .done a⟩
    | op o k ih =>
      obtain ⟨t, a, h⟩ := ih (.error (.py .typeErr))
      exact ⟨_, a, .op _ _ _ _ _ h⟩
  | op o k r tr _ ih =>
    obtain ⟨t, a, h⟩ := ih
    exact ⟨t, a, .op _ _ _ _ _ h⟩

theorem wmoves_partial {p q : WProg α} (h : WMoves σ π p q) {tr : List WEv} (hp : WPartial p tr) :
    WPartial q (tr.map (otherWEv σ π)) := by
  obtain ⟨t, a, hx⟩ := wpartial_extend hp
  have := wexec_partial (h _ _ hx)
  rw [List.map_append] at this
  exact wpartial_prefix this

/-! ## The database -/

/-- The database with other secrets and passwords. -/
def otherDb (σ : PyStr → Option PyStr → Option PyStr) (π : PyStr → PyStr → PyStr) (s : Store) : Store :=
  { s with
    clients := s.clients.map (fun c => { c with secret := σ c.id c.secret })
    users := s.users.map (fun u => { u with password := π u.id u.password }) }

theorem otherStore_eq (w : WStore) : otherStore σ π w = { w with db := otherDb σ π w.db } := rfl

theorem findUser_other (s : Store) (id : PyStr) :
    (otherDb σ π s).findUser id = (s.findUser id).map (fun u => { u with password := π u.id u.password }) := by
  unfold Store.findUser otherDb
  rw [List.find?_map]
  rfl

theorem findClient_other (s : Store) (id : PyStr) :
    (otherDb σ π s).findClient id = (s.findClient id).map (fun c => { c with secret := σ c.id c.secret }) := by
  unfold Store.findClient otherDb
  rw [List.find?_map]
  rfl

theorem findUser_isSome (s : Store) (id : PyStr) : ((otherDb σ π s).findUser id).isSome = (s.findUser id).isSome := by
  rw [findUser_other, Option.isSome_map]

theorem findClient_isSome (s : Store) (id : PyStr) : ((otherDb σ π s).findClient id).isSome = (s.findClient id).isSome := by
  rw [findClient_other, Option.isSome_map]

theorem saveCode_other (s : Store) (d : Draw) (code : PyStr) (data : Dict PyStr Val) (c : Client) (u : User) :
    saveCode (otherDb σ π s) d code data (otherSecret σ c) u =
      (otherDb σ π (saveCode s d code data c u).1, (saveCode s d code data c u).2) := by
  unfold saveCode
  split
  · rename_i uri scopes challenge method nonce h1 h2 h3 h4 h5
    split
    · rfl
    · rw [findClient_isSome, findUser_isSome]
      show (if _ then _ else _) = _
      split
      · rename_i h
        rw [if_pos (by exact h)]
        rfl
      · rename_i h
        rw [if_neg (by exact h)]
  · rfl
  · rfl

theorem createRefresh_other (s : Store) (d : Draw) (c : Client) (u : Option User) (l : List PyStr) :
    createRefresh (otherDb σ π s) d (otherSecret σ c) u l =
      (otherDb σ π (createRefresh s d c u l).1, (createRefresh s d c u l).2) := by
  unfold createRefresh
  cases u with
  | none => rfl
  | some u =>
    dsimp only
    show (match List.find? (fun r => decide (r.clientId = c.clientId ∧ r.userId = u.userId)) s.refresh with | some r => _ | none => _) = _
    cases List.find? (fun r => decide (r.clientId = c.clientId ∧ r.userId = u.userId)) s.refresh with
    | some r => rfl
    | none =>
      dsimp only
      cases secretToken d.choices32.val with
      | error e => rfl
      | ok token =>
        dsimp only
        rw [findClient_isSome, findUser_isSome]
        show (if _ then _ else _) = _
        split
        · rename_i h
          rw [if_pos (by exact h)]
          rfl
        · rename_i h
          rw [if_neg (by exact h)]

/-- An operation in the other world. -/
theorem exOp_other (env : OEnv) (d : Draw) (s : Store) (o : Op) (r : ORes o.Ans) :
    (exOp env d (otherDb σ π s) (otherEv σ ⟨o, r⟩).op).1 = otherDb σ π (exOp env d s o).1 ∧
      (r = (exOp env d s o).2 → (exOp env d (otherDb σ π s) (otherEv σ ⟨o, r⟩).op).2 = (otherEv σ ⟨o, r⟩).ans) := by
  cases o with
  | findUser id =>
    refine ⟨rfl, ?_⟩
    rintro rfl
    show Except.ok (Option.map UserRow.user ((otherDb σ π s).findUser id)) = Except.ok _
    rw [findUser_other, Option.map_map]
    rfl
  | findClient id =>
    refine ⟨rfl, ?_⟩
    rintro rfl
    show Except.ok (Option.map ClientRow.client ((otherDb σ π s).findClient id)) = Except.ok _
    rw [findClient_other, Option.map_map, Option.map_map]
    rfl
  | saveCode code data c u =>
    have h := saveCode_other (σ := σ) (π := π) s d code data c u
    exact ⟨congrArg Prod.fst h, by rintro rfl; exact (congrArg Prod.snd h :)⟩
  | getCode v => exact ⟨rfl, by rintro rfl; cases v <;> rfl⟩
  | deleteCode v => exact ⟨by cases v <;> rfl, by rintro rfl; rfl⟩
  | createAccess c o l =>
    refine ⟨rfl, ?_⟩
    rintro rfl
    cases o <;> rfl
  | createRefresh c u l =>
    have h := createRefresh_other (σ := σ) (π := π) s d c u l
    exact ⟨congrArg Prod.fst h, by rintro rfl; exact (congrArg Prod.snd h :)⟩
  | getRefresh t => exact ⟨rfl, by rintro rfl; rfl⟩
  | revoke c t h => exact ⟨rfl, by rintro rfl; rfl⟩
  | getUserinfo u l =>
    have h1 := findUser_other (σ := σ) (π := π) s u.userId
    cases h : s.findUser u.userId with
    | none =>
      rw [h] at h1
      constructor
      · show (match (otherDb σ π s).findUser u.userId with | none => _ | some u => _ : Store × _).1 =
          otherDb σ π (match s.findUser u.userId with | none => _ | some u => _ : Store × _).1
        rw [h, h1]; rfl
      · rintro rfl
        show (match (otherDb σ π s).findUser u.userId with | none => _ | some u => _ : Store × _).2 =
          (match s.findUser u.userId with | none => _ | some u => _ : Store × _).2
        rw [h, h1]; rfl
    | some row =>
      rw [h] at h1
      constructor
      · show (match (otherDb σ π s).findUser u.userId with | none => _ | some u => _ : Store × _).1 =
          otherDb σ π (match s.findUser u.userId with | none => _ | some u => _ : Store × _).1
        rw [h, h1]; rfl
      · rintro rfl
        show (match (otherDb σ π s).findUser u.userId with | none => _ | some u => _ : Store × _).2 =
          (match s.findUser u.userId with | none => _ | some u => _ : Store × _).2
        rw [h, h1]; rfl
  | getKeyInfo => exact ⟨rfl, by rintro rfl; rfl⟩
  | now => exact ⟨rfl, by rintro rfl; rfl⟩
  | stamp => exact ⟨rfl, by rintro rfl; rfl⟩
  | choices64 => exact ⟨rfl, by rintro rfl; rfl⟩
  | seed => exact ⟨rfl, by rintro rfl; rfl⟩

/-- An operation of the web layer in the other world. -/
theorem wOp_other (env : OEnv) (d : Draw) (w : WStore) (o : WOp) (r : ORes o.Ans) :
    (wOp env d (otherStore σ π w) (otherWEv σ π ⟨o, r⟩).op).1 = otherStore σ π (wOp env d w o).1 ∧
      (r = (wOp env d w o).2 → (wOp env d (otherStore σ π w) (otherWEv σ π ⟨o, r⟩).op).2 = (otherWEv σ π ⟨o, r⟩).ans) := by
  cases o with
  | lib o =>
    have h := exOp_other (σ := σ) (π := π) env d w.db o r
    exact ⟨congrArg (fun x => ({ w with db := x } : WStore)) h.1, h.2⟩
  | session sid uid =>
    refine ⟨rfl, ?_⟩
    rintro rfl
    show Except.ok (if (sid, uid) ∈ w.sessions then some (((otherDb σ π w.db).findUser uid).map UserRow.user) else none) = Except.ok _
    rw [findUser_other, Option.map_map]
    rfl
  | userByEmail e =>
    refine ⟨rfl, ?_⟩
    rintro rfl
    show Except.ok (((otherDb σ π w.db).users.find? (fun u => decide (u.email = e))).map (fun u => (u.id, u.password))) = Except.ok _
    unfold otherDb
    dsimp only
    rw [List.find?_map, Option.map_map, Option.map_map]
    rfl
  | sessionOf uid => exact ⟨rfl, by rintro rfl; rfl⟩
  | choices32 => exact ⟨rfl, by rintro rfl; rfl⟩
  | saveSession sid uid =>
    have h : wOp env d (otherStore σ π w) (.saveSession sid uid) =
        (otherStore σ π (wOp env d w (.saveSession sid uid)).1, (wOp env d w (.saveSession sid uid)).2) := by
      show (if sid.length ≤ 32 ∧ sid ∉ w.sessions.map Prod.fst ∧ ((otherDb σ π w.db).findUser uid).isSome then _ else _) = _
      rw [findUser_isSome]
      unfold wOp
      dsimp only
      split <;> rfl
    exact ⟨congrArg Prod.fst h, by rintro rfl; exact (congrArg Prod.snd h :)⟩
  | deleteRefresh uid => exact ⟨rfl, by rintro rfl; rfl⟩
  | deleteSessions uid => exact ⟨rfl, by rintro rfl; rfl⟩
  | pick => exact ⟨rfl, by rintro rfl; rfl⟩

theorem otherWEv_ext {ev : WEv} {n : Nat} (h : ev.ans = .error (.py (.ext n))) :
    (otherWEv σ π ev).ans = .error (.py (.ext n)) := by
  obtain ⟨o, r⟩ := ev
  dsimp only at h
  subst h
  cases o with
  | lib o => cases o <;> rfl
  | _ => rfl

theorem weffect_other {env : OEnv} {w w' : WStore} {ev : WEv} (h : WEffect env w ev w') :
    WEffect env (otherStore σ π w) (otherWEv σ π ev) (otherStore σ π w') := by
  obtain ⟨d, h⟩ := h
  refine ⟨d, ?_⟩
  have h0 := wOp_other (σ := σ) (π := π) env d w ev.op ev.ans
  rcases h with h | ⟨⟨n, hn⟩, h⟩
  · left
    rw [h] at h0
    exact Prod.ext h0.1 (h0.2 rfl)
  · right
    refine ⟨⟨n, otherWEv_ext hn⟩, ?_⟩
    rcases h with rfl | rfl
    · exact .inl rfl
    · exact .inr h0.1.symm

theorem wrun_other {env : OEnv} {w w' : WStore} {h : List WStep} (hr : WRun env w h w') :
    WRun env (otherStore σ π w) (h.map (fun s => (s.1, otherWEv σ π s.2))) (otherStore σ π w') := by
  induction hr with
  | nil w => exact .nil _
  | step w w' w'' i ev h he _ ih => exact .step _ _ _ _ _ _ (weffect_other he) ih
  | outside w w' w'' h ho _ ih => exact .outside _ (otherStore σ π w') _ _ ⟨⟨ho.db.codes, ho.db.refresh⟩, ho.sessions⟩ ih

theorem ofWeb_other (i : Nat) (h : List WStep) :
    ofWeb i (h.map (fun s => (s.1, otherWEv σ π s.2))) = (ofWeb i h).map (otherWEv σ π) := by
  unfold ofWeb
  rw [List.filterMap_map, List.map_filterMap]
  congr 1
  funext s
  dsimp only [Function.comp]
  split <;> rfl

end Psion.Example
