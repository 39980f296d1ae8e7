import Verif.OAuth.ForeignLemmas
import Verif.Example.WebLemmas

/-!
# Lemmas for the property about what a client learns of other clients: the example application
-/

namespace Psion.Example

open Psion Spec

variable {A : Ev → Prop} {me : PyStr} {α β : Type}

/-! ## Programs -/

/-- What is known about the answers of the library's operations. -/
def OfLib (A : Ev → Prop) (e : WEv) : Prop := ∀ o r, e = ⟨.lib o, r⟩ → A ⟨o, r⟩

/-- Two programs that behave in the same way, if their operations are answered alike. -/
inductive WLike (A : Ev → Prop) (me : PyStr) : WProg α → WProg α → Prop
  | done (a : α) : WLike A me (.done a) (.done a)
  | op (o : WOp) (k k' : ORes o.Ans → WProg α) :
      (∀ r r', AlikeWEv me ⟨o, r⟩ ⟨o, r'⟩ → OfLib A ⟨o, r⟩ → WLike A me (k r) (k' r')) → WLike A me (.op o k) (.op o k')

theorem wlike_bind {p q : WProg α} {f g : α → WProg β} (h : WLike A me p q) (hf : ∀ a, WLike A me (f a) (g a)) :
    WLike A me (WProg.bind p f) (WProg.bind q g) := by
  induction h with
  | done a => exact hf a
  | op o k k' _ ih => exact .op o _ _ ih

theorem wlike_pbind {p q : WP α} {f g : α → WP β} (h : WLike A me p q) (hf : ∀ a, WLike A me (f a) (g a)) :
    WLike A me (WP.bind p f) (WP.bind q g) := by
  refine wlike_bind h ?_
  intro r
  cases r with
  | error e => exact .done _
  | ok a => exact hf a

theorem alike_lib {o : Op} {r r' : ORes o.Ans} (h : AlikeWEv me ⟨.lib o, r⟩ ⟨.lib o, r'⟩) : AlikeEv me ⟨o, r⟩ ⟨o, r'⟩ := by
  cases h with
  | same => exact .same _
  | lib _ _ _ h => exact h

theorem alike_web {o : WOp} {r r' : ORes o.Ans} (ho : ∀ o', o ≠ .lib o') (h : AlikeWEv me ⟨o, r⟩ ⟨o, r'⟩) : r = r' := by
  cases h with
  | same => rfl
  | lib o' => exact absurd rfl (ho o')

theorem wlike_lib {Q : ORes α → Prop} {p q : P α} (h : Like A me Q p q) : WLike A me (WP.lib p) (WP.lib q) := by
  induction h with
  | done a _ => exact .done a
  | op o k k' _ ih => exact .op _ _ _ fun r r' hr hA => ih r r' (alike_lib hr) (hA o r rfl)

theorem wlike_call {o : WOp} (ho : ∀ o', o ≠ .lib o') : WLike A me (WP.call o) (WP.call o) := by
  refine .op o _ _ ?_
  intro r r' h _
  cases alike_web ho h
  exact .done _

theorem wlike_lift {r : Res α} : WLike A me (WP.lift r) (WP.lift r) := .done _

theorem wlike_partial {p q : WProg α} (h : WLike A me p q) : ∀ {tr tr' : List WEv}, WPartial p tr →
    Matched (AlikeWEv me) tr tr' → (∀ e ∈ tr, OfLib A e) → WPartial q tr' := by
  induction h with
  | done a =>
    intro tr tr' hp hm _
    cases hp
    cases hm
    exact .here _
  | op o k k' _ ih =>
    intro tr tr' hp hm hA
    cases hp with
    | here => cases hm; exact .here _
    | op _ _ r t hp =>
      cases hm with
      | @cons _ e' _ t' he hm =>
        have : ∃ r', e' = ⟨o, r'⟩ := by
          cases he <;> exact ⟨_, rfl⟩
        obtain ⟨r', rfl⟩ := this
        exact .op _ _ _ _ (ih r r' he (hA _ List.mem_cons_self) hp hm fun e h => hA e (List.mem_cons_of_mem _ h))

theorem wlike_exec {p q : WProg α} (h : WLike A me p q) : ∀ {tr tr' : List WEv} {a : α}, WExec p tr a →
    Matched (AlikeWEv me) tr tr' → (∀ e ∈ tr, OfLib A e) → WExec q tr' a := by
  induction h with
  | done a =>
    intro tr tr' b hp hm _
    cases hp
    cases hm
    exact .done _
  | op o k k' _ ih =>
    intro tr tr' b hp hm hA
    cases hp with
    | op _ _ r t _ hp =>
      cases hm with
      | @cons _ e' _ t' he hm =>
        have : ∃ r', e' = ⟨o, r'⟩ := by
          cases he <;> exact ⟨_, rfl⟩
        obtain ⟨r', rfl⟩ := this
        exact .op _ _ _ _ _ (ih r r' he (hA _ List.mem_cons_self) hp hm fun e h => hA e (List.mem_cons_of_mem _ h))

/-! ## Views -/

theorem wlike_loginPost {emailOk : PyStr → Bool} {req : WebRequest} {user : Option User} :
    WLike A me (loginPost emailOk req user) (loginPost emailOk req user) := by
  unfold loginPost
  split
  · exact .done _
  · split
    · exact .done _
    · refine wlike_pbind (wlike_call nofun) ?_
      intro found
      split
      · exact .done _
      · split
        · exact .done _
        · refine wlike_pbind (wlike_call nofun) ?_
          intro s
          split
          · exact .done _
          · refine wlike_pbind (wlike_call nofun) fun c => ?_
            refine wlike_pbind wlike_lift fun sid => ?_
            exact wlike_pbind (wlike_call nofun) fun _ => .done _

theorem wlike_both {p q : WP Unit} (hp : WLike A me p p) (hq : WLike A me q q) : WLike A me (both p q) (both p q) :=
  wlike_bind hp fun _ => wlike_bind hq fun _ => .done _

theorem wlike_logoutGet {req : WebRequest} {user : Option User} : WLike A me (logoutGet req user) (logoutGet req user) := by
  unfold logoutGet
  split
  · exact .done _
  · split
    · exact .done _
    · refine wlike_pbind (wlike_call nofun) ?_
      intro b
      refine wlike_pbind ?_ fun _ => .done _
      split
      · exact wlike_both (wlike_call nofun) (wlike_call nofun)
      · exact wlike_both (wlike_call nofun) (wlike_call nofun)

theorem wlike_authorizeGet {env : OEnv} {table : Hooks} (hb : Benign table) {req : WebRequest} {user : Option User} :
    WLike A me (authorizeGet env table req user) (authorizeGet env table req user) := by
  unfold authorizeGet
  split
  · split <;> exact .done _
  · exact wlike_pbind wlike_lift fun r => wlike_pbind (wlike_lib (like_authorize hb)) fun _ => .done _

theorem wlike_tokenPost {env : OEnv} {table : Hooks} (hb : Benign table) {req : WebRequest} {user : Option User}
    (hid : ∀ q m id s, createRequest req user = .ok q → Presents q m id s → id = me) :
    WLike FoundById me (tokenPost env table req user) (tokenPost env table req user) := by
  unfold tokenPost
  cases hq : createRequest req user with
  | error e => exact .done _
  | ok q =>
    show WLike FoundById me (WP.bind (WP.lib (exProvider.token env table q)) _) (WP.bind (WP.lib (exProvider.token env table q)) _)
    exact wlike_pbind (wlike_lib (like_token hb fun m id s h => hid q m id s hq h)) fun _ => .done _

theorem wlike_revokePost {env : OEnv} {req : WebRequest} {user : Option User} :
    WLike A me (revokePost env req user) (revokePost env req user) := by
  unfold revokePost
  exact wlike_pbind wlike_lift fun r => wlike_pbind (wlike_lib like_revoke) fun _ => .done _

theorem wlike_view {env : OEnv} {table : Hooks} (hb : Benign table) {emailOk : PyStr → Bool} {req : WebRequest} {user : Option User}
    (hid : ∀ q m id s, req.route = .token → createRequest req user = .ok q → Presents q m id s → id = me) :
    WLike FoundById me (view env table emailOk req user) (view env table emailOk req user) := by
  unfold view
  split
  · exact .done _
  · split
    · unfold loginGet
      split <;> exact .done _
    · split
      · exact wlike_loginPost
      · exact .done _
  · split
    · exact wlike_logoutGet
    · split <;> exact .done _
  · split
    · exact wlike_authorizeGet hb
    · exact .done _
  · exact .done _
  · split
    · exact wlike_revokePost
    · exact .done _
  · rename_i hr
    split
    · exact wlike_tokenPost hb fun q m id s h1 h2 => hid q m id s hr h1 h2
    · exact .done _

theorem wlike_app {env : OEnv} {table : Hooks} (hb : Benign table) {emailOk : PyStr → Bool} {req : WebRequest}
    (hid : ∀ user q m id s, req.route = .token → createRequest req user = .ok q → Presents q m id s → id = me) :
    WLike FoundById me (app env table emailOk req) (app env table emailOk req) := by
  unfold app
  split
  · exact wlike_view hb (hid _)
  · refine wlike_pbind (wlike_call nofun) ?_
    intro data
    split
    · exact wlike_view hb (hid _)
    · exact .done _
    · exact wlike_view hb (hid _)

/-! ## The database -/

/-- What a client may ask for: refresh tokens are created and revoked for `me` only, and nobody logs out. -/
def OwnOp (me : PyStr) : WOp → Prop
  | .lib (.createRefresh c _ _) | .lib (.revoke c _ _) => c.clientId = me
  | .deleteRefresh _ => False
  | _ => True

theorem alike_get {me : PyStr} {l m : List (PyStr × AuthCode)}
    (h : Matched (fun a b : PyStr × AuthCode => a.1 = b.1 ∧ Alike me AuthCode.clientId a.2 b.2) l m) (k : PyStr) :
    (Dict.get l k = none ∧ Dict.get m k = none) ∨
      ∃ a b, Dict.get l k = some a ∧ Dict.get m k = some b ∧ Alike me AuthCode.clientId a b := by
  induction h with
  | nil => exact Or.inl ⟨rfl, rfl⟩
  | @cons a b l m hab _ ih =>
    obtain ⟨ka, va⟩ := a
    obtain ⟨kb, vb⟩ := b
    obtain ⟨h1, h2⟩ := hab
    dsimp only at h1 h2
    subst h1
    unfold Dict.get
    by_cases hk : ka = k
    · rw [if_pos hk, if_pos hk]
      exact Or.inr ⟨va, vb, rfl, rfl, h2⟩
    · rw [if_neg hk, if_neg hk]
      exact ih

/-- Saving a code, as far as it depends on the codes that are there. -/
theorem saveCode_form (users : List UserRow) (clients : List ClientRow) (d : Draw) (code : PyStr) (data : Dict PyStr Val)
    (client : Client) (user : User) :
    (∃ e, ∀ codes refresh, saveCode ⟨users, clients, codes, refresh⟩ d code data client user = (⟨users, clients, codes, refresh⟩, .error e)) ∨
      ∃ ac, ∀ codes refresh, saveCode ⟨users, clients, codes, refresh⟩ d code data client user =
        if Dict.get codes code = none then (⟨users, clients, (code, ac) :: codes, refresh⟩, .ok ())
        else (⟨users, clients, codes, refresh⟩, dbError) := by
  unfold saveCode
  split
  · split
    · exact Or.inl ⟨_, fun _ _ => rfl⟩
    · rename_i uri _ challenge method nonce _ _ _ _ _ _ scopes _
      by_cases hc : code.length ≤ 64 ∧ challenge.length ≤ 128 ∧ method.length ≤ 16 ∧ nonce.length ≤ 256 ∧
          (Store.findClient ⟨users, clients, [], []⟩ client.clientId).isSome ∧
          (Store.findUser ⟨users, clients, [], []⟩ user.userId).isSome
      · obtain ⟨c1, c2, c3, c4, c5, c6⟩ := hc
        refine Or.inr ⟨⟨client.clientId, user.userId, uri, scopes, challenge, method, some nonce, d.now + 86400 * 1000000⟩,
          fun codes refresh => ?_⟩
        by_cases hg : Dict.get codes code = none
        · rw [if_pos ⟨c1, c2, c3, c4, hg, c5, c6⟩, if_pos hg]
        · rw [if_neg (fun h => hg h.2.2.2.2.1), if_neg hg]
      · refine Or.inl ⟨.py (.ext 1), fun codes refresh => ?_⟩
        rw [if_neg (fun ⟨c1, c2, c3, c4, _, c5, c6⟩ => hc ⟨c1, c2, c3, c4, c5, c6⟩)]
        rfl
  · exact Or.inl ⟨_, fun _ _ => rfl⟩
  · exact Or.inl ⟨_, fun _ _ => rfl⟩

theorem alike_op {env : OEnv} {d : Draw} {w w2 : WStore} (h : AlikeStores me w w2) {o : WOp} (ho : OwnOp me o) :
    AlikeStores me (wOp env d w o).1 (wOp env d w2 o).1 ∧ AlikeWEv me ⟨o, (wOp env d w o).2⟩ ⟨o, (wOp env d w2 o).2⟩ := by
  obtain ⟨⟨users, clients, codes, refresh⟩, sessions⟩ := w
  obtain ⟨⟨users2, clients2, codes2, refresh2⟩, sessions2⟩ := w2
  have h0 := h
  obtain ⟨h1, h2, h3, h4, h5⟩ := h
  dsimp only at h1 h2 h3 h4 h5
  subst h1 h2 h3
  cases o with
  | lib o =>
    cases o with
    | saveCode code data client user =>
      simp only [wOp, exOp]
      rcases saveCode_form users2 clients2 d code data client user with ⟨e, he⟩ | ⟨ac, hac⟩
      · rw [he, he]
        exact ⟨h0, .same _⟩
      · rw [hac, hac]
        rcases alike_get h4 code with ⟨g1, g2⟩ | ⟨a, b, g1, g2, -⟩
        · rw [if_pos g1, if_pos g2]
          exact ⟨⟨rfl, rfl, rfl, .cons ⟨rfl, Or.inl rfl⟩ h4, h5⟩, .same _⟩
        · rw [if_neg (by rw [g1]; nofun), if_neg (by rw [g2]; nofun)]
          exact ⟨h0, .same _⟩
    | getCode v =>
      refine ⟨h0, .lib _ _ _ ?_⟩
      simp only [wOp, exOp]
      unfold Store.findCode
      cases v with
      | str code =>
        dsimp only
        rcases alike_get h4 code with ⟨g1, g2⟩ | ⟨a, b, g1, g2, rfl | hab⟩
        · rw [g1, g2]; exact .same _
        · rw [g1, g2]; exact .same _
        · rw [g1, g2]; exact .code _ _ _ hab.1 hab.2
      | _ => exact .same _
    | deleteCode v =>
      refine ⟨?_, .same _⟩
      cases v with
      | str code => exact ⟨rfl, rfl, rfl, matched_filter h4 fun a b hab => by rw [hab.1], h5⟩
      | _ => exact h0
    | createRefresh client user scopes =>
      have hme : client.clientId = me := ho
      simp only [wOp, exOp]
      unfold createRefresh
      cases user with
      | none => exact ⟨h0, .same _⟩
      | some u =>
        dsimp only
        rcases matched_find h5 (p := fun r : RefreshTok => decide (r.clientId = client.clientId ∧ r.userId = u.userId))
            (q := fun r : RefreshTok => decide (r.clientId = client.clientId ∧ r.userId = u.userId)) (by
          rintro a b ⟨-, rfl | ⟨ha, hb⟩⟩
          · rfl
          · rw [decide_eq_false (fun h => ha (h.1.trans hme)), decide_eq_false (fun h => hb (h.1.trans hme))]) with
          ⟨g1, g2⟩ | ⟨a, b, g1, g2, hab, -⟩
        · rw [g1, g2]
          dsimp only
          cases secretToken d.choices32.val with
          | error e => exact ⟨h0, .same _⟩
          | ok token =>
            dsimp only
            have hf : (Store.findRefresh ⟨users2, clients2, codes, refresh⟩ token).isNone =
                (Store.findRefresh ⟨users2, clients2, codes2, refresh2⟩ token).isNone := by
              unfold Store.findRefresh
              rcases matched_find h5 (p := fun r : RefreshTok => decide (r.token = token)) (q := fun r : RefreshTok => decide (r.token = token))
                (by rintro a b ⟨hab, -⟩; rw [hab]) with ⟨g1, g2⟩ | ⟨a, b, g1, g2, -⟩ <;> simp only [g1, g2] <;> rfl
            have hc : Store.findClient ⟨users2, clients2, codes, refresh⟩ client.clientId =
              Store.findClient ⟨users2, clients2, codes2, refresh2⟩ client.clientId := rfl
            have hu : Store.findUser ⟨users2, clients2, codes, refresh⟩ u.userId =
              Store.findUser ⟨users2, clients2, codes2, refresh2⟩ u.userId := rfl
            rw [hf, hc, hu]
            split
            · exact ⟨⟨rfl, rfl, rfl, h4, .cons ⟨rfl, Or.inl rfl⟩ h5⟩, .same _⟩
            · exact ⟨h0, .same _⟩
        · rw [g1, g2]
          dsimp only
          rw [hab]
          exact ⟨h0, .same _⟩
    | getRefresh token =>
      refine ⟨h0, .lib _ _ _ ?_⟩
      simp only [wOp, exOp]
      unfold Store.findRefresh
      rcases matched_find h5 (p := fun r : RefreshTok => decide (r.token = token)) (q := fun r : RefreshTok => decide (r.token = token))
        (by rintro a b ⟨hab, -⟩; rw [hab]) with ⟨g1, g2⟩ | ⟨a, b, g1, g2, -, rfl | hab⟩
      · simp only [g1, g2]; exact .same _
      · simp only [g1, g2]; exact .same _
      · simp only [g1, g2]; exact .refresh _ _ _ hab.1 hab.2
    | revoke client token hint =>
      have hme : client.clientId = me := ho
      refine ⟨⟨rfl, rfl, rfl, h4, matched_filter h5 ?_⟩, .same _⟩
      rintro a b ⟨-, rfl | ⟨ha, hb⟩⟩
      · rfl
      · have ha' : ¬ (a.token = token ∧ a.clientId = client.clientId) := fun h => ha (h.2.trans hme)
        have hb' : ¬ (b.token = token ∧ b.clientId = client.clientId) := fun h => hb (h.2.trans hme)
        rw [decide_eq_true ha', decide_eq_true hb']
    | getUserinfo user scopes =>
      have hu : Store.findUser ⟨users2, clients2, codes, refresh⟩ user.userId =
        Store.findUser ⟨users2, clients2, codes2, refresh2⟩ user.userId := rfl
      simp only [wOp, exOp]
      rw [hu]
      cases Store.findUser ⟨users2, clients2, codes2, refresh2⟩ user.userId <;> exact ⟨h0, .same _⟩
    | _ => exact ⟨h0, .same _⟩
  | saveSession sid uid =>
    simp only [wOp]
    have hu : Store.findUser ⟨users2, clients2, codes, refresh⟩ uid =
      Store.findUser ⟨users2, clients2, codes2, refresh2⟩ uid := rfl
    rw [hu]
    split
    · exact ⟨⟨rfl, rfl, rfl, h4, h5⟩, .same _⟩
    · exact ⟨h0, .same _⟩
  | deleteRefresh => exact ho.elim
  | deleteSessions uid => exact ⟨⟨rfl, rfl, rfl, h4, h5⟩, .same _⟩
  | _ => exact ⟨h0, .same _⟩

theorem alike_effect {env : OEnv} {w w' w2 : WStore} {ev : WEv} (h : AlikeStores me w w2) (ho : OwnOp me ev.op)
    (he : WEffect env w ev w') : ∃ ev2 w2', AlikeWEv me ev ev2 ∧ WEffect env w2 ev2 w2' ∧ AlikeStores me w' w2' := by
  obtain ⟨o, ans⟩ := ev
  obtain ⟨d, he | ⟨⟨n, hn⟩, hw⟩⟩ := he
  · obtain ⟨h1, h2⟩ := alike_op (env := env) (d := d) h ho
    dsimp only at he
    refine ⟨⟨o, (wOp env d w2 o).2⟩, (wOp env d w2 o).1, ?_, ⟨d, Or.inl rfl⟩, ?_⟩
    · rw [he] at h2; exact h2
    · dsimp only at h1
      rw [he] at h1; exact h1
  · dsimp only at hn
    rcases hw with rfl | rfl
    · exact ⟨⟨o, ans⟩, w2, .same _, ⟨d, Or.inr ⟨⟨n, hn⟩, Or.inl rfl⟩⟩, h⟩
    · exact ⟨⟨o, ans⟩, (wOp env d w2 o).1, .same _, ⟨d, Or.inr ⟨⟨n, hn⟩, Or.inr rfl⟩⟩, (alike_op h ho).1⟩

/-- A history in one of two databases takes place in the other one as well, with alike answers. -/
theorem alike_run {env : OEnv} {w w' : WStore} {h : List WStep} (hrun : WRun env w h w') : ∀ {w2 : WStore}, AlikeStores me w w2 →
    (∀ s ∈ h, OwnOp me s.2.op) → ∃ h2 w2', AlikeHistory me h h2 ∧ WRun env w2 h2 w2' ∧ AlikeStores me w' w2' := by
  induction hrun with
  | nil w =>
    intro w2 hs _
    exact ⟨[], w2, .nil, .nil _, hs⟩
  | step w w' w'' i ev h he _ ih =>
    intro w2 hs ho
    obtain ⟨ev2, w2', h1, h2, h3⟩ := alike_effect hs (ho _ List.mem_cons_self) he
    obtain ⟨h2', w2'', g1, g2, g3⟩ := ih h3 fun s hm => ho s (List.mem_cons_of_mem _ hm)
    exact ⟨(i, ev2) :: h2', w2'', .cons ⟨rfl, h1⟩ g1, .step _ _ _ _ _ _ h2 g2, g3⟩
  | outside w w' w'' h hout _ ih =>
    intro w2 hs ho
    obtain ⟨c2, hc1, hc2⟩ := matched_sublist hout.db.codes hs.codes
    obtain ⟨r2, hr1, hr2⟩ := matched_sublist hout.db.refresh hs.refresh
    have hs' : AlikeStores me w' ⟨⟨w'.db.users, w'.db.clients, c2, r2⟩, w'.sessions⟩ := ⟨rfl, rfl, rfl, hc2, hr2⟩
    obtain ⟨h2', w2'', g1, g2, g3⟩ := ih hs' ho
    refine ⟨h2', w2'', g1, .outside _ _ _ _ ⟨⟨hc1, hr1⟩, ?_⟩ g2, g3⟩
    rw [hs.sessions]
    exact hout.sessions

/-- The operations of one request. -/
theorem alike_ofWeb {h h2 : List WStep} (hh : AlikeHistory me h h2) (i : Nat) : Matched (AlikeWEv me) (ofWeb i h) (ofWeb i h2) := by
  unfold ofWeb
  induction hh with
  | nil => exact .nil
  | @cons a b l m hab _ ih =>
    rw [List.filterMap_cons, List.filterMap_cons, ← hab.1]
    by_cases hi : a.1 = i
    · rw [if_pos hi, if_pos hi]
      exact .cons hab.2 ih
    · rw [if_neg hi, if_neg hi]
      exact ih

end Psion.Example
