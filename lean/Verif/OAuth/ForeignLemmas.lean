import Verif.Spec.Foreign
import Verif.OAuth.TokenLemmas
import Verif.OAuth.AuthorizeLemmas
import Verif.OAuth.RevokeLemmas

/-!
# Lemmas for the property about what a client learns of other clients
-/

namespace Psion

open Spec

/-! ## Related lists -/

theorem matched_refl {α : Type} {R : α → α → Prop} (h : ∀ a, R a a) : ∀ l, Matched R l l
  | [] => .nil
  | a :: l => .cons (h a) (matched_refl h l)

theorem matched_filter {α β : Type} {R : α → β → Prop} {p : α → Bool} {q : β → Bool} {l : List α} {m : List β}
    (h : Matched R l m) (hp : ∀ a b, R a b → p a = q b) : Matched R (l.filter p) (m.filter q) := by
  induction h with
  | nil => exact .nil
  | @cons a b l m hab _ ih =>
    have := hp a b hab
    by_cases hq : q b = true
    · rw [List.filter_cons_of_pos (this.trans hq), List.filter_cons_of_pos hq]
      exact .cons hab ih
    · rw [List.filter_cons_of_neg (by rw [this]; exact hq), List.filter_cons_of_neg hq]
      exact ih

theorem matched_sublist {α β : Type} {R : α → β → Prop} {l l' : List α} (hs : l'.Sublist l) :
    ∀ {m : List β}, Matched R l m → ∃ m', m'.Sublist m ∧ Matched R l' m' := by
  induction hs with
  | slnil =>
    intro m h
    cases h
    exact ⟨[], .slnil, .nil⟩
  | cons a _ ih =>
    intro m h
    cases h with
    | cons hab h =>
      obtain ⟨m', h1, h2⟩ := ih h
      exact ⟨m', .cons _ h1, h2⟩
  | cons_cons a _ ih =>
    intro m h
    cases h with
    | cons hab h =>
      obtain ⟨m', h1, h2⟩ := ih h
      exact ⟨_, .cons_cons _ h1, .cons hab h2⟩

/-- The first members that are accepted are related. -/
theorem matched_find {α β : Type} {R : α → β → Prop} {p : α → Bool} {q : β → Bool} {l : List α} {m : List β}
    (h : Matched R l m) (hp : ∀ a b, R a b → p a = q b) :
    (l.find? p = none ∧ m.find? q = none) ∨ ∃ a b, l.find? p = some a ∧ m.find? q = some b ∧ R a b := by
  induction h with
  | nil => exact Or.inl ⟨rfl, rfl⟩
  | @cons a b l m hab _ ih =>
    have := hp a b hab
    by_cases hq : q b = true
    · exact Or.inr ⟨a, b, by rw [List.find?_cons_of_pos (this.trans hq)], by rw [List.find?_cons_of_pos hq], hab⟩
    · rw [List.find?_cons_of_neg (by rw [this]; exact hq), List.find?_cons_of_neg hq]
      exact ih

/-! ## Programs -/

/-- Two programs that behave in the same way, if their operations are answered alike. `A` is what is known about the answers. -/
inductive Like (A : Ev → Prop) (me : PyStr) {α : Type} (Q : α → Prop) : Prog α → Prog α → Prop
  | done (a : α) : Q a → Like A me Q (.done a) (.done a)
  | op (o : Op) (k k' : ORes o.Ans → Prog α) :
      (∀ r r', AlikeEv me ⟨o, r⟩ ⟨o, r'⟩ → A ⟨o, r⟩ → Like A me Q (k r) (k' r')) → Like A me Q (.op o k) (.op o k')

variable {A : Ev → Prop} {me : PyStr} {α β : Type}

theorem Like.mono {Q Q' : α → Prop} {p q : Prog α} (h : Like A me Q p q) (hq : ∀ a, Q a → Q' a) : Like A me Q' p q := by
  induction h with
  | done a ha => exact .done a (hq a ha)
  | op o k k' _ ih => exact .op o k k' ih

theorem like_bind {Q : α → Prop} {Q' : β → Prop} {p q : Prog α} {f g : α → Prog β} (h : Like A me Q p q)
    (hf : ∀ a, Q a → Like A me Q' (f a) (g a)) : Like A me Q' (Prog.bind p f) (Prog.bind q g) := by
  induction h with
  | done a ha => exact hf a ha
  | op o k k' _ ih => exact .op o _ _ ih

/-- What is said about the value, if there is one. -/
def IfOk (Q : α → Prop) (r : ORes α) : Prop := ∀ a, r = .ok a → Q a

theorem like_pbind {Q : α → Prop} {Q' : β → Prop} {p q : P α} {f g : α → P β} (h : Like A me (IfOk Q) p q)
    (hf : ∀ a, Q a → Like A me (IfOk Q') (f a) (g a)) : Like A me (IfOk Q') (P.bind p f) (P.bind q g) := by
  refine like_bind h ?_
  intro r hr
  cases r with
  | error e => exact .done _ nofun
  | ok a => exact hf a (hr a rfl)

theorem like_any {Q : α → Prop} {p q : Prog α} (h : Like A me Q p q) : Like A me (fun _ => True) p q := h.mono fun _ _ => trivial

theorem like_ifOk {p q : P α} (h : Like A me (fun _ => True) p q) : Like A me (IfOk fun _ => True) p q :=
  h.mono fun _ _ _ _ => trivial

theorem like_raise {Q : α → Prop} (e : OExc) : Like A me (IfOk Q) (P.raise e : P α) (P.raise e) := .done _ nofun

theorem like_ret {Q : α → Prop} {a : α} (h : Q a) : Like A me (IfOk Q) (P.ret a) (P.ret a) :=
  .done _ (by intro b hb; cases hb; exact h)

theorem like_lift {Q : α → Prop} {r : ORes α} (h : IfOk Q r) : Like A me (IfOk Q) (P.lift r) (P.lift r) := .done _ h

/-- An operation that finds no codes and refresh tokens. -/
def plain : Op → Bool
  | .getCode _ | .getRefresh _ => false
  | _ => true

theorem alike_plain {o : Op} {r r' : ORes o.Ans} (ho : plain o = true) (h : AlikeEv me ⟨o, r⟩ ⟨o, r'⟩) : r = r' := by
  cases h with
  | same => rfl
  | code => cases ho
  | refresh => cases ho

theorem like_call {o : Op} (ho : plain o = true) : Like A me (IfOk fun a => A ⟨o, .ok a⟩) (P.call o) (P.call o) := by
  refine .op o _ _ ?_
  intro r r' h hA
  cases alike_plain ho h
  exact .done _ (by rintro a rfl; exact hA)

/-- A program that does not look for codes and refresh tokens. -/
theorem like_plain : ∀ {p : Prog α}, (∀ tr, Partial p tr → ∀ e ∈ tr, plain e.op = true) → Like A me (fun _ => True) p p
  | .done a, _ => .done a trivial
  | .op o k, h => by
    have ho := h [⟨o, .error (.py .keyErr)⟩] (.op o k _ _ (.here _)) _ (List.mem_singleton.mpr rfl)
    refine .op o k k ?_
    intro r r' hr _
    cases alike_plain ho hr
    refine like_plain ?_
    intro tr ht e he
    exact h _ (.op o k r tr ht) e (List.mem_cons_of_mem _ he)

/-- What one of the programs does, the other one does as well, if it gets alike answers. -/
theorem like_partial {Q : α → Prop} {p q : Prog α} (h : Like A me Q p q) : ∀ {tr tr' : List Ev}, Partial p tr →
    Matched (AlikeEv me) tr tr' → (∀ e ∈ tr, A e) → Partial q tr' := by
  induction h with
  | done a _ =>
    intro tr tr' hp hm _
    cases hp
    cases hm
    exact .here _
  | op o k k' _ ih =>
    intro tr tr' hp hm hA
    cases hp with
    | here => cases hm; exact .here _
    | op _ _ r t hp =>
      cases hm with
      | @cons _ e' _ t' he hm =>
        have : ∃ r', e' = ⟨o, r'⟩ := by
          cases he <;> exact ⟨_, rfl⟩
        obtain ⟨r', rfl⟩ := this
        exact .op _ _ _ _ (ih r r' he (hA _ List.mem_cons_self) hp hm fun e h => hA e (List.mem_cons_of_mem _ h))

theorem like_exec {Q : α → Prop} {p q : Prog α} (h : Like A me Q p q) : ∀ {tr tr' : List Ev} {a : α}, Exec p tr a →
    Matched (AlikeEv me) tr tr' → (∀ e ∈ tr, A e) → Exec q tr' a := by
  induction h with
  | done a _ =>
    intro tr tr' b hp hm _
    cases hp
    cases hm
    exact .done _
  | op o k k' _ ih =>
    intro tr tr' b hp hm hA
    cases hp with
    | op _ _ r t _ hp =>
      cases hm with
      | @cons _ e' _ t' he hm =>
        have : ∃ r', e' = ⟨o, r'⟩ := by
          cases he <;> exact ⟨_, rfl⟩
        obtain ⟨r', rfl⟩ := this
        exact .op _ _ _ _ _ (ih r r' he (hA _ List.mem_cons_self) hp hm fun e h => hA e (List.mem_cons_of_mem _ h))

/-! ## Client authentication -/

/-- A client is found under its own id. -/
def FoundById (e : Ev) : Prop := ∀ id c, e = ⟨.findClient id, .ok (some c)⟩ → c.clientId = id

theorem like_checkClient {m : AuthMethod} {hd : Dict PyStr PyStr} {id : PyStr} {sec : Option PyStr} (hid : id = me) :
    Like FoundById me (IfOk fun r => ∀ c, r = some c → c.clientId = me) (checkClient m hd id sec) (checkClient m hd id sec) := by
  unfold checkClient
  refine like_pbind (like_call rfl) ?_
  intro r hr
  cases r with
  | none => exact like_raise _
  | some c =>
    dsimp only
    split
    · exact like_raise _
    · split
      · exact like_raise _
      · refine like_ret ?_
        rintro _ ⟨⟩
        exact (hr id c rfl).trans hid

theorem like_run {req : Request} {m : AuthMethod} (hid : ∀ m id s, Presents req m id s → id = me) :
    Like FoundById me (IfOk fun r => ∀ c, r = some c → c.clientId = me) (m.run req) (m.run req) := by
  have none_ok : Like FoundById me (IfOk fun r : Option Client => ∀ c, r = some c → c.clientId = me) (P.ret none) (P.ret none) :=
    like_ret nofun
  cases m with
  | basic =>
    show Like FoundById me _ (authBasic req) (authBasic req)
    unfold authBasic
    refine like_pbind (Q := fun r => liftRes (getBasicAuthorization req.headers) = .ok r) (like_lift fun a ha => ha) ?_
    intro r hr
    split
    · exact none_ok
    · rename_i id secret
      split
      · exact none_ok
      · rename_i hne
        rw [not_or] at hne
        refine like_checkClient ?_
        refine hid .basic id (some secret) (.basic id secret (credentials_iff.mp ?_) hne.1 hne.2)
        cases hg : getBasicAuthorization req.headers with
        | error e => rw [hg] at hr; cases hr
        | ok r => rw [hg] at hr; cases hr; rfl
  | post =>
    show Like FoundById me _ (authPost req) (authPost req)
    unfold authPost
    split
    · rename_i id secret h1 h2
      split
      · exact none_ok
      · rename_i hne
        rw [not_or] at hne
        exact like_checkClient (hid .post id (some secret) (.post id secret h1 h2 hne.1 hne.2))
    · exact none_ok
  | none_ =>
    show Like FoundById me _ (authNone req) (authNone req)
    unfold authNone
    split
    · rename_i id h1 h2
      split
      · exact none_ok
      · rename_i hne
        exact like_checkClient (hid .none_ id none (.none_ id h1 h2 hne))
    · exact none_ok

theorem like_authLoop {req : Request} {methods : Option (List PyStr)} (hid : ∀ m id s, Presents req m id s → id = me) :
    ∀ ms, Like FoundById me (IfOk fun c => c.clientId = me) (authLoop req methods ms) (authLoop req methods ms)
  | [] => like_raise _
  | m :: ms => by
    unfold authLoop
    split
    · refine like_pbind (like_run hid) ?_
      intro r hr
      cases r with
      | none => exact like_authLoop hid ms
      | some c => exact like_ret (hr c rfl)
    · exact like_authLoop hid ms

theorem like_authenticate {req : Request} {methods : Option (List PyStr)} (hid : ∀ m id s, Presents req m id s → id = me) :
    Like FoundById me (IfOk fun c => c.clientId = me) (authenticate req methods) (authenticate req methods) := like_authLoop hid _

/-! ## Hooks -/

theorem plain_of_benign {reserved : List PyStr} {p : P (Option (Dict PyStr Val))} (h : BenignHook reserved p) :
    ∀ tr, Partial p tr → ∀ e ∈ tr, plain e.op = true := by
  intro tr ht e he
  have := h.ops tr ht e he
  generalize e.op = o at this
  cases o <;> first | rfl | cases this

theorem like_runHooks {l : List (Dict PyStr Val → P (Option (Dict PyStr Val)))} :
    ∀ {acc : Dict PyStr Val}, (∀ h ∈ l, ∀ acc, ∀ tr, Partial (h acc) tr → ∀ e ∈ tr, plain e.op = true) →
      Like A me (IfOk fun _ => True) (runHooks acc l) (runHooks acc l) := by
  induction l with
  | nil => exact fun _ => like_ret trivial
  | cons h hs ih =>
    intro acc hl
    exact like_pbind (like_ifOk (like_plain (hl h List.mem_cons_self acc))) fun _ _ => ih fun h' hm => hl h' (List.mem_cons_of_mem _ hm)

/-! ## Grants -/

theorem ifOk_true (r : ORes α) : IfOk (fun _ => True) r := fun _ _ => trivial

theorem like_lift' (r : ORes α) : Like A me (IfOk fun _ => True) (P.lift r) (P.lift r) := like_lift (ifOk_true r)

theorem like_call' {o : Op} (ho : plain o = true) : Like A me (IfOk fun _ => True) (P.call o) (P.call o) :=
  like_ifOk (like_any (like_call ho))

theorem like_maybeRefresh {client : Client} {user : Option User} {scopes : List PyStr} :
    Like A me (IfOk fun _ => True) (maybeRefresh client user scopes) (maybeRefresh client user scopes) := by
  unfold maybeRefresh
  split
  · exact like_pbind (like_call' rfl) fun _ _ => like_ret trivial
  · exact like_ret trivial

theorem like_validateCode {env : OEnv} {data : Dict PyStr Val} {code : AuthCode} {client : Client} :
    Like A me (IfOk fun _ => True) (validateAuthorizationCode env data code client) (validateAuthorizationCode env data code client) := by
  unfold validateAuthorizationCode
  refine like_pbind (like_lift' _) ?_
  intro uri _
  split
  · exact like_raise _
  · split
    · exact like_raise _
    · split
      · exact like_raise _
      · split
        · exact like_raise _
        · refine like_pbind (like_lift' _) ?_
          intro v _
          split
          · exact like_raise _
          · exact like_raise _
          · split
            · exact like_raise _
            · refine like_pbind (like_call' rfl) ?_
              intro now _
              split
              · exact like_raise _
              · exact like_ret trivial

/-- A code of another client is refused, whatever it contains. -/
theorem validateCode_foreign {env : OEnv} {data : Dict PyStr Val} {a : AuthCode} {client : Client} (h : client.clientId ≠ a.clientId) :
    validateAuthorizationCode env data a client =
      P.bind (P.lift (item data (py! "redirect_uri"))) fun uri =>
        if !uri.inList (client.redirectUris.map .str) then P.raise (invalidGrant (py! "Invalid Redirect URI."))
        else P.raise (invalidGrant (py! "Mismatching Client ID.")) := by
  unfold validateAuthorizationCode
  congr 1
  funext uri
  by_cases hu : (!uri.inList (client.redirectUris.map .str)) = true
  · rw [if_pos hu, if_pos hu]
  · rw [if_neg hu, if_neg hu, if_pos h]

theorem pbind_foreign {β γ : Type} {d : ORes γ} {c : γ → Bool} {e e' : OExc} {f g : Unit → P β} :
    P.bind (P.bind (P.lift d) fun x => if c x then P.raise e else P.raise e') f =
      P.bind (P.bind (P.lift d) fun x => if c x then P.raise e else P.raise e') g := by
  cases d with
  | error => rfl
  | ok x =>
    show P.bind (if c x then P.raise e else P.raise e') f = P.bind (if c x then P.raise e else P.raise e') g
    split <;> rfl

theorem pbind_lift_done {β γ : Type} {d : ORes γ} {c : γ → Bool} {e e' : OExc} {f : Unit → P β} :
    ∃ r, P.bind (P.bind (P.lift d) fun x => if c x then P.raise e else P.raise e') f = .done r := by
  cases d with
  | error => exact ⟨_, rfl⟩
  | ok x =>
    show ∃ r, P.bind (if c x then P.raise e else P.raise e') f = .done r
    split <;> exact ⟨_, rfl⟩

theorem like_same_done {p q : Prog α} (h : p = q) (hd : ∃ a, q = .done a) : Like A me (fun _ => True) p q := by
  subst h
  obtain ⟨a, rfl⟩ := hd
  exact .done a trivial

theorem like_codeTokenBody {env : OEnv} {cfg : Config} {table : Hooks} (hb : Benign table) {data : Dict PyStr Val} {client : Client}
    (hme : client.clientId = me) :
    Like A me (IfOk fun _ => True) (codeTokenBody env cfg table data client) (codeTokenBody env cfg table data client) := by
  unfold codeTokenBody
  refine like_pbind (like_lift' _) ?_
  intro c _
  refine .op _ _ _ ?_
  intro r r' hr _
  cases hr with
  | same =>
    cases r with
    | error e => exact .done _ nofun
    | ok found =>
      cases found with
      | none => exact like_raise _
      | some code =>
        show Like A me _ (P.bind (validateAuthorizationCode env data code client) _)
          (P.bind (validateAuthorizationCode env data code client) _)
        refine like_pbind (Q := fun _ => True) like_validateCode ?_
        intro _ _
        refine like_pbind (Q := fun _ => True) (like_call' rfl) ?_
        intro found _
        cases found with
        | none => exact like_raise _
        | some user =>
          refine like_pbind (Q := fun _ => True) (like_call' rfl) fun access _ => ?_
          refine like_pbind (Q := fun _ => True) like_maybeRefresh fun refresh _ => ?_
          refine like_runHooks ?_
          intro h hh acc
          obtain ⟨h', hm, rfl⟩ := List.mem_map.mp hh
          exact plain_of_benign (hb.tokenResponse h' hm _ _ _ _)
  | code _ a b ha hb' =>
    refine like_ifOk (like_same_done ?_ ?_)
    · show P.bind (validateAuthorizationCode env data a client) _ = P.bind (validateAuthorizationCode env data b client) _
      rw [validateCode_foreign (by rw [hme]; exact ha.symm), validateCode_foreign (by rw [hme]; exact hb'.symm)]
      exact pbind_foreign
    · show ∃ x, P.bind (validateAuthorizationCode env data b client) _ = _
      rw [validateCode_foreign (by rw [hme]; exact hb'.symm)]
      exact pbind_lift_done

theorem like_finally {p q : P α} {f : P Unit} (h : Like A me (IfOk fun _ => True) p q) (hf : Like A me (fun _ => True) f f) :
    Like A me (IfOk fun _ => True) (P.finally_ p f) (P.finally_ q f) := by
  refine like_ifOk (like_bind h ?_)
  intro r _
  refine like_bind hf ?_
  intro s _
  cases s <;> exact .done _ trivial

theorem like_deleteCode {c : ORes Val} : Like A me (fun _ => True) (deleteCode c) (deleteCode c) :=
  like_any (like_pbind (Q' := fun _ => True) (like_lift' c) fun c _ => like_call' (o := .deleteCode c) rfl)

theorem like_codeToken {env : OEnv} {cfg : Config} {table : Hooks} (hb : Benign table) {data : Dict PyStr PyStr} {client : Client}
    (hme : client.clientId = me) :
    Like A me (IfOk fun _ => True) (codeToken env cfg table data client) (codeToken env cfg table data client) := by
  unfold codeToken
  refine like_bind (Q := fun _ => True) ?_ ?_
  · refine like_any (like_pbind (Q' := fun _ => True) (like_lift' _) fun _ _ => like_runHooks ?_)
    intro h hh acc
    obtain ⟨h', hm, rfl⟩ := List.mem_map.mp hh
    exact plain_of_benign (hb.tokenRequest h' hm _)
  · intro r _
    cases r with
    | error e => exact like_finally (like_raise _) like_deleteCode
    | ok valid => exact like_finally (like_codeTokenBody hb hme) like_deleteCode

theorem like_refreshToken {env : OEnv} {cfg : Config} {data : Dict PyStr PyStr} {client : Client} (hme : client.clientId = me) :
    Like A me (IfOk fun _ => True) (refreshToken env cfg data client) (refreshToken env cfg data client) := by
  unfold refreshToken
  split
  · exact like_raise _
  · refine .op _ _ _ ?_
    intro r r' hr _
    cases hr with
    | same =>
      cases r with
      | error e => exact .done _ nofun
      | ok found =>
        cases found with
        | none => exact like_raise _
        | some token =>
          show Like A me _ (P.bind (validateRefreshToken token client) _) (P.bind (validateRefreshToken token client) _)
          refine like_pbind (Q := fun _ => True) ?_ fun _ _ => ?_
          · unfold validateRefreshToken
            split
            · exact like_raise _
            · refine like_pbind (like_call' rfl) ?_
              intro now _
              split
              · exact like_raise _
              · exact like_ret trivial
          · refine like_pbind (like_lift' _) fun _ _ => ?_
            refine like_pbind (like_lift' _) fun _ _ => ?_
            refine like_pbind (like_call' rfl) fun _ _ => ?_
            refine like_pbind (like_call' rfl) fun _ _ => ?_
            exact like_pbind like_maybeRefresh fun _ _ => like_ret trivial
    | refresh _ a b ha hb =>
      have he : ∀ t : RefreshTok, t.clientId ≠ me → validateRefreshToken t client = P.raise (.oauth (.mk' .invalidClient)) := by
        intro t ht
        unfold validateRefreshToken
        rw [if_pos (by rw [hme]; exact ht)]
      refine like_ifOk (like_same_done ?_ ?_)
      · show P.bind (validateRefreshToken a client) _ = P.bind (validateRefreshToken b client) _
        rw [he a ha, he b hb]
        rfl
      · show ∃ x, P.bind (validateRefreshToken b client) _ = _
        rw [he b hb]
        exact ⟨_, rfl⟩

theorem like_credentialsToken {env : OEnv} {cfg : Config} {data : Dict PyStr PyStr} {client : Client} :
    Like A me (IfOk fun _ => True) (credentialsToken env cfg data client) (credentialsToken env cfg data client) := by
  unfold credentialsToken
  refine like_pbind (like_lift' _) fun _ _ => ?_
  refine like_pbind (like_lift' _) fun _ _ => ?_
  exact like_pbind (like_call' rfl) fun _ _ => like_ret trivial

/-! ## Endpoints -/

theorem like_catch {p q : P α} {f : OErr → P α} (h : Like A me (IfOk fun _ => True) p q)
    (hf : ∀ e, Like A me (fun _ => True) (f e) (f e)) : Like A me (fun _ => True) (P.catchOAuth p f) (P.catchOAuth q f) := by
  refine like_bind h ?_
  intro r _
  split
  · exact .done _ trivial
  · exact hf _
  · exact .done _ trivial

/-- The token endpoint, if only `me` presents itself as a client. -/
theorem like_token {env : OEnv} {table : Hooks} (hb : Benign table) {p : Provider} {req : Request}
    (hid : ∀ m id s, Presents req m id s → id = me) :
    Like FoundById me (fun _ => True) (p.token env table req) (p.token env table req) := by
  refine like_catch ?_ fun e => like_any (like_lift' _)
  unfold tokenBody
  dsimp only
  split
  · exact like_raise _
  · refine like_pbind (Q := fun g => g ∈ p.objects env table) (like_lift ?_) ?_
    · intro g hg
      obtain ⟨g', hm, -, rfl⟩ := validateGrantType_ok hg
      exact List.mem_map.mpr ⟨g', hm, rfl⟩
    · intro g hg
      refine like_pbind (like_authenticate hid) ?_
      intro client hme
      split
      · exact like_raise _
      · refine like_pbind (Q := fun _ => True) ?_ fun _ _ => like_lift' _
        obtain ⟨g', -, rfl⟩ := List.mem_map.mp hg
        cases g' with
        | authorizationCode => exact like_codeToken hb hme
        | clientCredentials => exact like_credentialsToken
        | refreshToken => exact like_refreshToken hme

/-- The revocation endpoint. -/
theorem like_revoke {env : OEnv} {p : Provider} {req : Request} :
    Like A me (fun _ => True) (p.revoke env req) (p.revoke env req) := by
  refine like_plain ?_
  intro tr ht e he
  obtain ⟨pre, post, rfl⟩ := List.append_of_mem he
  have : RevokeOp req pre e.op := wpp_partial ht (wpp_revoke env p req) answers_true rfl
  generalize e.op = o at this
  cases o <;> first | rfl | exact this.elim

/-- The authorization endpoint. -/
theorem like_authorize {env : OEnv} {table : Hooks} (hb : Benign table) {p : Provider} {req : Request} :
    Like A me (fun _ => True) (p.authorize env table req) (p.authorize env table req) := by
  refine like_plain ?_
  intro tr ht e he
  obtain ⟨pre, post, rfl⟩ := List.append_of_mem he
  have := authorize_op hb ht
  generalize e.op = o at this
  cases o <;> first | rfl | exact this.elim

end Psion
