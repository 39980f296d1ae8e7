import Verif.OAuth.AnswerLemmas
import Verif.Props.Token
import Verif.Spec.Success

/-!
# Legitimate requests: lemmas

Coroutines whose answers are the events of a given execution `tr`, and which cannot raise.
-/

namespace Psion

open Spec

variable {α β : Type} {tr : List Ev}

/-- The answers are those of the execution `tr`, in its order. -/
def From (tr : List Ev) (h : List Ev) (ev : Ev) : Prop := ∃ post, tr = h ++ ev :: post

theorem from_answers (tr : List Ev) : Answers (From tr) [] tr := by
  intro pre ev post h
  exact ⟨post, by simpa using h⟩

theorem from_mem {h : List Ev} {ev : Ev} (hf : From tr h ev) : ev ∈ tr := by
  obtain ⟨post, rfl⟩ := hf
  simp

/-- The coroutine returns something that satisfies `Q`, if the answers are those of `tr`. -/
def Returns (tr : List Ev) (Q : α → Prop) (p : P α) : Prop :=
  ∀ h, WpP (From tr) (fun _ _ => True) (fun _ => Q) (fun _ _ => False) h p

theorem returns_exec {Q : α → Prop} {p : P α} {out : ORes α} (hp : Returns tr Q p) (h : Exec p tr out) :
    ∃ a, out = .ok a ∧ Q a := by
  cases out with
  | ok a => exact ⟨a, rfl, wpp_exec_ok h (hp []) (from_answers tr)⟩
  | error e => exact (wpp_exec_error h (hp []) (from_answers tr)).elim

theorem returns_mono {Q Q' : α → Prop} {p : P α} (hp : Returns tr Q p) (hQ : ∀ a, Q a → Q' a) : Returns tr Q' p :=
  fun h => wpp_mono (hp h) (fun _ _ h => h) (fun _ => hQ) (fun _ _ h => h)

theorem returns_ret {Q : α → Prop} {a : α} (ha : Q a) : Returns tr Q (P.ret a) := fun _ => ha

theorem returns_call {o : Op} {Q : o.Ans → Prop} (hx : ∀ r, (⟨o, r⟩ : Ev) ∈ tr → ∃ a, r = .ok a ∧ Q a) :
    Returns tr Q (P.call o) := by
  intro h
  rw [wpp_call]
  refine ⟨trivial, ?_, ?_⟩
  · intro a ha
    obtain ⟨b, hb, hq⟩ := hx _ (from_mem ha)
    cases hb
    exact hq
  · intro e he
    obtain ⟨b, hb, -⟩ := hx _ (from_mem he)
    cases hb

theorem returns_bind {Q : α → Prop} {R : β → Prop} {p : P α} {f : α → P β} (hp : Returns tr Q p)
    (hf : ∀ a, Q a → Returns tr R (f a)) : Returns tr R (P.bind p f) := by
  intro h
  rw [wpp_bind]
  exact wpp_mono (hp h) (fun _ _ h => h) (fun h a ha => hf a ha h) (fun _ _ h => h)

/-- `x = p; ...` where `p` does not wait and is known. -/
theorem returns_known {R : β → Prop} {r : ORes α} {a : α} {f : α → P β} (hr : r = .ok a) (hf : Returns tr R (f a)) :
    Returns tr R (P.bind (P.lift r) f) := by
  subst hr
  exact hf

/-- `x = await operation; ...`. -/
theorem returns_await {o : Op} {R : β → Prop} {f : o.Ans → P β}
    (hx : ∀ r, (⟨o, r⟩ : Ev) ∈ tr → ∃ a, r = .ok a ∧ Returns tr R (f a)) : Returns tr R (P.bind (P.call o) f) :=
  returns_bind (returns_call hx) (fun _ h => h)

theorem returns_finally {Q : α → Prop} {p : P α} {q : P Unit} (hp : Returns tr Q p) (hq : Returns tr (fun _ => True) q) :
    Returns tr Q (P.finally_ p q) := by
  intro h
  rw [wpp_finally]
  exact wpp_mono (hp h) (fun _ _ h => h)
    (fun h a ha => wpp_mono (hq h) (fun _ _ h => h) (fun _ _ _ => ha) (fun _ _ h => h)) (fun _ _ h => h.elim)

/-- A coroutine of which nothing is known but its executions. -/
theorem returns_of_exec {Q : α → Prop} {p : P α}
    (hp : ∀ tr' out, tr' <:+: tr → Exec p tr' out → ∃ a, out = .ok a ∧ Q a) : Returns tr Q p := by
  have main : ∀ (q : P α) (h h' : List Ev), (h' = [] ∨ ∃ pre post, tr = pre ++ h' ++ post ∧ h = pre ++ h') →
      (∀ tr' out, Exec q tr' out → Exec p (h' ++ tr') out) →
      WpP (From tr) (fun _ _ => True) (fun _ => Q) (fun _ _ => False) h q := by
    intro q
    induction q with
    | done a =>
      intro h h' hh hx
      have hin : h' <:+: tr := by
        rcases hh with rfl | ⟨pre, post, rfl, -⟩
        · exact List.nil_infix
        · exact ⟨pre, post, rfl⟩
      obtain ⟨b, hb, hq⟩ := hp h' a hin (by simpa using hx [] a (.done a))
      subst hb
      exact hq
    | op o k ih =>
      intro h h' hh hx
      refine ⟨trivial, fun r hr => ih r _ (h' ++ [⟨o, r⟩]) (Or.inr ?_) ?_⟩
      · obtain ⟨post, hpost⟩ := hr
        rcases hh with rfl | ⟨pre, post', -, rfl⟩
        · exact ⟨h, post, by simpa using hpost, by simp⟩
        · exact ⟨pre, post, by simpa using hpost, by simp⟩
      · intro tr' out hx'
        simpa using hx (⟨o, r⟩ :: tr') out (.op o k r tr' out hx')
  intro h
  exact main p h [] (Or.inl rfl) (fun tr' out hx => hx)

/-! ## Authentication -/

theorem returns_checkClient {m : AuthMethod} {hd : Dict PyStr PyStr} {id : PyStr} {c : Client}
    (hf : ∀ r, (⟨.findClient id, r⟩ : Ev) ∈ tr → r = .ok (some c)) (hm : c.authMethod = m.name) :
    Returns tr (fun o => o = some c) (checkClient m hd id c.secret) := by
  unfold checkClient
  refine returns_await (fun r hr => ⟨some c, hf r hr, ?_⟩)
  dsimp only
  rw [if_neg (by simp), if_neg (by simp [hm])]
  exact returns_ret rfl

theorem returns_run {req : Request} {m : AuthMethod} {id : PyStr} {c : Client} (hi : Identifies req m id c)
    (hf : ∀ r, (⟨.findClient id, r⟩ : Ev) ∈ tr → r = .ok (some c)) :
    Returns tr (fun o => o = some c) (m.run req) := by
  have hp := hi.presents
  have hm := hi.registered
  generalize hsec : c.secret = sec at hp
  cases hp with
  | basic _ secret h1 h2 h3 =>
    change Returns tr _ (authBasic req)
    unfold authBasic
    refine returns_known (by rw [credentials_iff.mpr h1]; rfl) ?_
    dsimp only
    rw [if_neg (by simp [h2, h3]), ← hsec]
    exact returns_checkClient hf hm
  | post _ secret h1 h2 h3 h4 =>
    change Returns tr _ (authPost req)
    unfold authPost
    rw [h1, h2]
    dsimp only
    rw [if_neg (by simp [h3, h4]), ← hsec]
    exact returns_checkClient hf hm
  | none_ _ h1 h2 h3 =>
    change Returns tr _ (authNone req)
    unfold authNone
    rw [h1, h2]
    dsimp only
    rw [if_neg h3, ← hsec]
    exact returns_checkClient hf hm

theorem returns_authenticate {req : Request} {methods : Option (List PyStr)} {m : AuthMethod} {id : PyStr} {c : Client}
    (hi : Identifies req m id c) (hm : Allows methods m)
    (hf : ∀ r, (⟨.findClient id, r⟩ : Ev) ∈ tr → r = .ok (some c)) :
    Returns tr (fun o => o = c) (authenticate req methods) := by
  have found : ∀ ms, Returns tr (fun o => o = c) (authLoop req methods (m :: ms)) := by
    intro ms
    unfold authLoop
    rw [if_pos (methodEnabled_allows.mpr hm)]
    refine returns_bind (returns_run hi hf) ?_
    rintro _ rfl
    exact returns_ret rfl
  have skip : ∀ m' ms, Returns tr (fun o => o = none) (m'.run req) → Returns tr (fun o => o = c) (authLoop req methods ms) →
      Returns tr (fun o => o = c) (authLoop req methods (m' :: ms)) := by
    intro m' ms h1 h2
    unfold authLoop
    split
    · refine returns_bind h1 ?_
      rintro _ rfl
      exact h2
    · exact h2
  have basic : getBasicAuthorization req.headers = .ok none → Returns tr (fun o => o = none) (AuthMethod.basic.run req) := by
    intro hb
    change Returns tr _ (authBasic req)
    unfold authBasic
    refine returns_known (by rw [hb]; rfl) ?_
    exact returns_ret rfl
  have hp := hi.presents
  have ha := hi.alone
  generalize c.secret = sec at hp
  unfold authenticate AuthMethod.all
  cases hp with
  | basic => exact found _
  | post _ secret h1 h2 h3 h4 =>
    exact skip _ _ (basic (getBasic_none_iff.mpr (ha.resolve_left (by simp)))) (found _)
  | none_ _ h1 h2 h3 =>
    refine skip _ _ (basic (getBasic_none_iff.mpr (ha.resolve_left (by simp)))) (skip _ _ ?_ (found _))
    change Returns tr _ (authPost req)
    unfold authPost
    rw [h1, h2]
    exact returns_ret rfl

/-! ## The token endpoint around the grants -/

theorem validateGrantType_served {env : OEnv} {table : Hooks} {p : Provider} {g : GrantClass} (hg : g ∈ p.grants) :
    validateGrantType (p.objects env table) (some (grantName g)) = .ok (grantOf env p.cfg table g) := by
  have hname : ∃ ch s, grantName g = ch :: s := by cases g <;> exact ⟨_, _, rfl⟩
  cases hv : validateGrantType (p.objects env table) (some (grantName g)) with
  | ok grant =>
    obtain ⟨g', -, h2, rfl⟩ := validateGrantType_ok hv
    have : grantName g = grantName g' := Option.some.inj h2
    have : g = g' := by cases g <;> cases g' <;> first | rfl | exact absurd this (by decide)
    rw [this]
  | error e =>
    exfalso
    obtain ⟨ch, s, hn⟩ := hname
    unfold validateGrantType at hv
    rw [hn] at hv
    dsimp only at hv
    split at hv
    · cases hv
    · rename_i hnone
      rw [List.find?_eq_none] at hnone
      refine hnone (grantOf env p.cfg table g) (List.mem_map.mpr ⟨g, hg, rfl⟩) ?_
      rw [grantOf_type, hn]
      simp

/-- The token endpoint serves a client if the grant does. -/
theorem returns_token {env : OEnv} (hl : FloatLaws env.cr.fe) {table : Hooks} {p : Provider} {req : Request} {g : GrantClass}
    {m : AuthMethod} {id : PyStr} {c : Client} (hg : g ∈ p.grants)
    (htype : Dict.get req.data (py! "grant_type") = some (grantName g)) (hi : Identifies req m id c)
    (hm : Allows (grantMethods g) m) (hreg : grantName g ∈ c.grantTypes)
    (hf : ∀ r, (⟨.findClient id, r⟩ : Ev) ∈ tr → r = .ok (some c)) {R : Dict PyStr Val → Prop}
    (hgrant : Returns tr (fun d => Val.EncD d ∧ (Val.dict d).Wf ∧ R d)
      ((grantOf env p.cfg table g).token (Dict.del req.data (py! "grant_type")) c)) :
    Returns tr (fun r => r.status = 200 ∧ ∃ d, JsonBody env.cr.fe r d ∧ R d)
      (p.token env table req) := by
  have hbody : Returns tr (fun r => r.status = 200 ∧ ∃ d, JsonBody env.cr.fe r d ∧ R d)
      (tokenBody env (p.objects env table) req) := by
    unfold tokenBody
    dsimp only
    rw [if_neg (by intro hn; rw [hn] at htype; cases htype)]
    refine returns_known (by rw [htype]; exact validateGrantType_served hg) ?_
    rw [grantOf_methods, grantOf_type]
    refine returns_bind (returns_authenticate hi hm hf) ?_
    rintro _ rfl
    rw [if_neg (by simpa using hreg)]
    refine returns_bind hgrant ?_
    rintro d ⟨henc, hwf, hr⟩
    obtain ⟨r, hj⟩ := jsonResponse_ok hl henc 200 noStoreHeaders
    rw [hj]
    intro h
    exact ⟨(Props.jsonResponse_status hj).1, d, Props.jsonResponse_body hl hwf hj, hr⟩
  intro h
  unfold Provider.token tokenEndpoint
  rw [wpp_catch]
  exact wpp_mono (hbody h) (fun _ _ h => h) (fun _ _ h => h) (fun _ _ h => h.elim)

/-! ## Scopes -/

theorem validateRequestedScopes_served {env : OEnv} {cfg : Config} {l allowed : List PyStr} {c : Client} {state : Val}
    (hp : Permits c allowed) (hs : ∀ s ∈ l, s ∈ cfg.scopes) (ha : ∀ s ∈ l, s ∈ allowed) :
    validateRequestedScopes env cfg (strList l) c state = .ok () := by
  obtain ⟨r, hr, hmem⟩ := hp l
  unfold validateRequestedScopes
  rw [if_neg (by simp [strList, Val.isNone])]
  have hi : liftRes (iterVal (strList l)) = .ok (l.map .str) := rfl
  have hu : unsupportedScope cfg (l.map .str) = none := by
    unfold unsupportedScope
    rw [List.find?_eq_none]
    intro v hv
    obtain ⟨s, hs', rfl⟩ := List.mem_map.mp hv
    simp [inList_str.mpr (hs s hs')]
  rw [hi, hr]
  dsimp only
  rw [hu]
  dsimp only
  rw [if_pos]
  unfold subsetVals
  rw [List.all_eq_true]
  intro v hv
  obtain ⟨s, hs', rfl⟩ := List.mem_map.mp hv
  exact inList_str.mpr ((hmem s).mpr ⟨hs', ha s hs'⟩)

/-- The members of a token response that come from the library. -/
structure TokenMembers (cfg : Config) (d : Dict PyStr Val) (access : PyStr) (refresh : Option PyStr) : Prop where
  access : Dict.get d (py! "access_token") = some (.str access)
  type : Dict.get d (py! "token_type") = some (.str (py! "Bearer"))
  lifespan : Dict.get d (py! "expires_in") = some (.int cfg.tokenLifespan)
  refresh : Dict.get d (py! "refresh_token") = refresh.map .str

theorem tokenMembers_createToken (cfg : Config) (access : PyStr) (refresh : Option PyStr) (scopes : Option (List PyStr)) :
    TokenMembers cfg (createToken cfg access refresh scopes) access refresh := by
  obtain ⟨g1, g2, g3, g4, -⟩ := Props.createToken_get cfg access refresh scopes
  exact ⟨g1, g2, g3, g4⟩

/-! ## Client credentials -/

theorem returns_credentials {env : OEnv} {cfg : Config} {data : Dict PyStr PyStr} {c : Client} {scopes : List PyStr}
    {requested : Val} (hreq : scopeParam data = requested)
    (hv : validateRequestedScopes env cfg requested c .none = .ok ()) (hs : c.allowedScopes requested = .ok scopes)
    (hw : ∀ r, (⟨.createAccess c (.client c) scopes, r⟩ : Ev) ∈ tr → (∀ x ∈ scopes, Encodable x) ∧ ∃ t, r = .ok t ∧ Encodable t) :
    Returns tr (fun d => Val.EncD d ∧ (Val.dict d).Wf ∧ ∃ access,
      (⟨.createAccess c (.client c) scopes, .ok access⟩ : Ev) ∈ tr ∧ TokenMembers cfg d access none)
      (credentialsToken env cfg data c) := by
  unfold credentialsToken
  dsimp only
  rw [hreq]
  refine returns_known hv (returns_known hs (returns_await ?_))
  intro r hr
  obtain ⟨hx, t, rfl, ht⟩ := hw r hr
  refine ⟨t, rfl, returns_ret ⟨encD_createToken ht (by simp) ?_, Props.wf_createToken _ _ _ _, t, hr,
    tokenMembers_createToken _ _ _ _⟩⟩
  intro l hl
  unfold scopesIfChanged at hl
  split at hl
  · cases hl
  · cases hl; exact hx

/-! ## Refresh tokens -/

theorem returns_maybeRefresh {c : Client} {user : Option User} {scopes : List PyStr}
    (hw : ∀ r, (⟨.createRefresh c user scopes, r⟩ : Ev) ∈ tr → ∃ t, r = .ok t ∧ Encodable t) :
    Returns tr (fun o => (∀ t, o = some t → Encodable t) ∧
      ((py! "refresh_token" ∈ c.grantTypes ∧ ∃ t, (⟨.createRefresh c user scopes, .ok t⟩ : Ev) ∈ tr ∧ o = some t) ∨
        (py! "refresh_token" ∉ c.grantTypes ∧ o = none))) (maybeRefresh c user scopes) := by
  unfold maybeRefresh
  split
  · rename_i hg
    refine returns_await ?_
    intro r hr
    obtain ⟨t, rfl, ht⟩ := hw r hr
    exact ⟨t, rfl, returns_ret ⟨by rintro _ ⟨⟩; exact ht, Or.inl ⟨hg, t, hr, rfl⟩⟩⟩
  · rename_i hg
    exact returns_ret ⟨by simp, Or.inr ⟨hg, rfl⟩⟩

theorem handsOutRefresh_of {cfg : Config} {d : Dict PyStr Val} {access : PyStr} {refresh : Option PyStr} {c : Client}
    {user : Option User} {scopes : List PyStr} (hm : TokenMembers cfg d access refresh)
    (h : (py! "refresh_token" ∈ c.grantTypes ∧ ∃ t, (⟨.createRefresh c user scopes, .ok t⟩ : Ev) ∈ tr ∧ refresh = some t) ∨
        (py! "refresh_token" ∉ c.grantTypes ∧ refresh = none)) : HandsOutRefresh tr d c user scopes := by
  rcases h with ⟨h1, t, h2, rfl⟩ | ⟨h1, rfl⟩
  · exact Or.inl ⟨h1, t, h2, hm.refresh⟩
  · exact Or.inr ⟨h1, hm.refresh⟩

/-- The scopes of a legitimate refresh request. -/
theorem refreshScopes_served {env : OEnv} {cfg : Config} {rt : RefreshTok} {data : Dict PyStr PyStr} {c : Client}
    {allowed ws : List PyStr} (hp : Permits c allowed) (hask : Asks data ws) (h1 : ∀ s ∈ ws, s ∈ cfg.scopes)
    (h2 : ∀ s ∈ ws, s ∈ allowed) (h3 : ∀ s ∈ ws, s ∈ rt.scopes) :
    ∃ base, refreshScopes env cfg rt (if blank data (py! "scope") then none
      else some (splitWs ((Dict.get data (py! "scope")).getD []))) c = .ok base ∧
      (ws = [] → base = rt.scopes) ∧ (ws ≠ [] → ∀ s, s ∈ base ↔ s ∈ ws) := by
  cases hb : blank data (py! "scope") with
  | true =>
    have hws : ws = [] := by
      rcases hask with ⟨-, h⟩ | ⟨text, ht, hw⟩
      · exact h
      · rcases blank_eq_true.mp hb with hn | hn
        · rw [hn] at ht; cases ht
        · rw [hn] at ht; cases ht; rw [words_iff] at hw; rw [← hw]; rfl
    exact ⟨rt.scopes, rfl, fun _ => rfl, fun h => absurd hws h⟩
  | false =>
    obtain ⟨text, ht, -⟩ := blank_eq_false.mp hb
    have hws : splitWs text = ws := by
      rcases hask with ⟨hn, -⟩ | ⟨text', ht', hw⟩
      · rw [ht] at hn; cases hn
      · rw [ht] at ht'; cases ht'; exact words_iff.mp hw
    rw [if_neg (by simp), ht]
    dsimp only [Option.getD]
    rw [hws]
    unfold refreshScopes
    dsimp only
    rw [validateRequestedScopes_served hp h1 h2]
    dsimp only
    cases ws with
    | nil => exact ⟨rt.scopes, rfl, fun _ => rfl, fun h => absurd rfl h⟩
    | cons w ws =>
      dsimp only
      rw [if_neg (by simpa using h3)]
      refine ⟨_, rfl, by simp, fun _ s => ?_⟩
      rw [env.inter_mem]
      exact ⟨fun h => h.2, fun h => ⟨h3 s h, h⟩⟩

theorem returns_refresh {env : OEnv} {cfg : Config} {data : Dict PyStr PyStr} {c : Client} {token : PyStr} {rt : RefreshTok}
    {user : User} {allowed ws : List PyStr} (htok : Dict.get data (py! "refresh_token") = some token) (hne : token ≠ [])
    (hfound : ∀ r, (⟨.getRefresh token, r⟩ : Ev) ∈ tr → r = .ok (some rt)) (hcl : rt.clientId = c.clientId)
    (hnow : ∀ r, (⟨.now, r⟩ : Ev) ∈ tr → ∃ t : Int, r = .ok t ∧ t < rt.expiration)
    (huser : ∀ r, (⟨.findUser rt.userId, r⟩ : Ev) ∈ tr → r = .ok (some user))
    (hp : Permits c allowed) (hask : Asks data ws) (h1 : ∀ s ∈ ws, s ∈ cfg.scopes)
    (h2 : ∀ s ∈ ws, s ∈ allowed) (h3 : ∀ s ∈ ws, s ∈ rt.scopes)
    {id : PyStr} (hw : Works tr id c (.user (some user)) (fun l => ∀ s ∈ l, s ∈ allowed)) :
    Returns tr (fun d => Val.EncD d ∧ (Val.dict d).Wf ∧ ∃ scopes access refresh,
      (ws = [] → ∀ s, s ∈ scopes ↔ s ∈ rt.scopes ∧ s ∈ allowed) ∧ (ws ≠ [] → ∀ s, s ∈ scopes ↔ s ∈ ws) ∧
      (⟨.createAccess c (.user (some user)) scopes, .ok access⟩ : Ev) ∈ tr ∧ TokenMembers cfg d access refresh ∧
      HandsOutRefresh tr d c (some user) scopes) (refreshToken env cfg data c) := by
  unfold refreshToken
  rw [if_neg (by rw [Bool.not_eq_true, blank_eq_false]; exact ⟨token, htok, hne⟩), htok]
  refine returns_await (fun r hr => ⟨some rt, hfound r hr, ?_⟩)
  dsimp only
  refine returns_bind (Q := fun _ => True) ?_ ?_
  · unfold validateRefreshToken
    rw [if_neg (by simp [hcl])]
    refine returns_await ?_
    intro r hr
    obtain ⟨t, rfl, ht⟩ := hnow r hr
    refine ⟨t, rfl, ?_⟩
    rw [if_neg (Int.not_le.mpr ht)]
    exact returns_ret trivial
  · intro _ _
    obtain ⟨base, hbase, hb1, hb2⟩ := refreshScopes_served (env := env) (cfg := cfg) (rt := rt) hp hask h1 h2 h3
    obtain ⟨scopes, hsc, hmem⟩ := hp base
    refine returns_known hbase (returns_known hsc ?_)
    refine returns_await (fun r hr => ⟨some user, huser r hr, ?_⟩)
    refine returns_await ?_
    intro r hr
    have hal : ∀ s ∈ scopes, s ∈ allowed := fun s hs => ((hmem s).mp hs).2
    obtain ⟨henc, access, rfl, hta⟩ := hw.access _ r hal hr
    refine ⟨access, rfl, ?_⟩
    refine returns_bind (returns_maybeRefresh (fun r => hw.refresh _ _ r rfl hal)) ?_
    rintro refresh ⟨hr1, hr2⟩
    refine returns_ret ⟨encD_createToken hta hr1 ?_, Props.wf_createToken _ _ _ _, scopes, access, refresh, ?_, ?_, hr,
      tokenMembers_createToken _ _ _ _, handsOutRefresh_of (tokenMembers_createToken _ _ _ _) hr2⟩
    · intro l hl
      split at hl
      · cases hl
      · cases hl; exact henc
    · intro hws s
      rw [hmem, hb1 hws]
    · intro hws s
      rw [hmem, hb2 hws]
      exact ⟨fun h => h.1, fun h => ⟨h, h2 s h⟩⟩

/-! ## Authorization codes -/

theorem pkce_run {env : OEnv} {ac : AuthCode} {v : PyStr} (h : PkceOk env ac v) :
    ac.challengeMethod ∈ challengeMethods ∧ runChallenge env ac.challengeMethod ac.challenge (.str v) = some (.ok true) := by
  rcases h with ⟨hm, hc⟩ | ⟨hm, hv, hc⟩
  · refine ⟨by rw [hm]; decide, ?_⟩
    unfold runChallenge
    rw [if_pos hm]
    unfold plainChallenge
    rw [pyEq_text.mpr hc]
  · refine ⟨by rw [hm]; decide, ?_⟩
    unfold runChallenge
    rw [if_neg (by rw [hm]; decide), if_pos hm]
    unfold s256Challenge toBytesAscii
    dsimp only
    rw [if_pos (by rw [List.all_eq_true]; intro c hc; simpa using hv c hc)]
    dsimp only
    rw [toStringB_b64url]
    simp [hc]

theorem returns_runHooks {l : List (Dict PyStr Val → P (Option (Dict PyStr Val)))} {I : Dict PyStr Val → Prop}
    (hne : ∀ f ∈ l, ∀ acc tr' e, tr' <:+: tr → I acc → ¬ Exec (f acc) tr' (.error e))
    (hI : ∀ f ∈ l, ∀ acc tr' d, tr' <:+: tr → Exec (f acc) tr' (.ok (some d)) → I acc → I (Dict.update acc d)) :
    ∀ {acc}, I acc → Returns tr I (runHooks acc l) := by
  induction l with
  | nil => intro acc hi; exact returns_ret hi
  | cons f l ih =>
    intro acc hi
    unfold runHooks
    refine returns_bind (Q := fun r => I (updateHook acc r)) (returns_of_exec ?_) ?_
    · intro tr' out hs hx
      rcases out with e | r
      · exact absurd hx (hne f List.mem_cons_self acc tr' e hs hi)
      · refine ⟨r, rfl, ?_⟩
        cases r with
        | none => exact hi
        | some d => exact hI f List.mem_cons_self acc tr' d hs hx hi
    · intro r hr
      exact ih (fun g hg => hne g (List.mem_cons_of_mem _ hg)) (fun g hg => hI g (List.mem_cons_of_mem _ hg)) hr

theorem get_update_free {reserved : List PyStr} {acc d : Dict PyStr Val} (h : ∀ k ∈ reserved, Dict.get d k = none) :
    ∀ k ∈ reserved, Dict.get (Dict.update acc d) k = Dict.get acc k :=
  get_updateHook (r := some d) (by rintro _ ⟨⟩; exact h)

theorem wf_update {d e : Dict PyStr Val} (hd : (Val.dict d).Wf) (he : Val.WfD e) : (Val.dict (Dict.update d e)).Wf := by
  refine ⟨Dict.ok_update hd.1 _, ?_⟩
  rw [wfD_iff] at he ⊢
  intro kv hkv
  rcases Dict.mem_update hkv with hkv | hkv
  · exact wfD_iff.mp hd.2 kv hkv
  · exact he kv hkv

theorem returns_code {env : OEnv} {cfg : Config} {table : Hooks} (hb : Benign table)
    {data : Dict PyStr PyStr} {c : Client} {code uri verifier : PyStr} {ac : AuthCode} {user : User}
    (hh : HooksWork table tr c user ac.scopes)
    (hcode : Dict.get data (py! "code") = some code) (huri : Dict.get data (py! "redirect_uri") = some uri)
    (hver : Dict.get data (py! "code_verifier") = some verifier) (hn : code ≠ [] ∧ uri ≠ [] ∧ verifier ≠ [])
    (hfound : ∀ r, (⟨.getCode (.str code), r⟩ : Ev) ∈ tr → r = .ok (some ac)) (hcl : ac.clientId = c.clientId)
    (hau : ac.redirectUri = uri) (hreg : uri ∈ c.redirectUris) (hpk : PkceOk env ac verifier)
    (hnow : ∀ r, (⟨.now, r⟩ : Ev) ∈ tr → ∃ t : Int, r = .ok t ∧ t < ac.expiration)
    (huser : ∀ r, (⟨.findUser ac.userId, r⟩ : Ev) ∈ tr → r = .ok (some user))
    (hdel : ∀ r, (⟨.deleteCode (.str code), r⟩ : Ev) ∈ tr → r = .ok ())
    {id : PyStr} (hw : Works tr id c (.user (some user)) (fun l => l = ac.scopes)) :
    Returns tr (fun d => Val.EncD d ∧ (Val.dict d).Wf ∧ ∃ access refresh,
      (⟨.createAccess c (.user (some user)) ac.scopes, .ok access⟩ : Ev) ∈ tr ∧ TokenMembers cfg d access refresh ∧
      HandsOutRefresh tr d c (some user) ac.scopes) (codeToken env cfg table data c) := by
  have hvalid : Returns tr (fun valid => ValidCodeData data valid code uri verifier) (validateCodeTokenRequest table data) := by
    unfold validateCodeTokenRequest
    have hpar : codeTokenParams data = .ok [(py! "code", .str code), (py! "redirect_uri", .str uri),
        (py! "code_verifier", .str verifier)] := by
      unfold codeTokenParams
      rw [if_neg (by rw [Bool.not_eq_true, blank_eq_false]; exact ⟨code, hcode, hn.1⟩),
        if_neg (by rw [Bool.not_eq_true, blank_eq_false]; exact ⟨uri, huri, hn.2.1⟩),
        if_neg (by rw [Bool.not_eq_true, blank_eq_false]; exact ⟨verifier, hver, hn.2.2⟩), hcode, huri, hver]
      rfl
    refine returns_known hpar (returns_runHooks ?_ ?_ ?_)
    · intro f hf acc tr' e hs _
      obtain ⟨g, hg, rfl⟩ := List.mem_map.mp hf
      exact hh.request g hg data tr' e hs
    · intro f hf acc tr' d hs hx hv
      obtain ⟨g, hg, rfl⟩ := List.mem_map.mp hf
      have hk := get_update_free (acc := acc) ((hb.tokenRequest g hg data).keys tr' d hx)
      exact ⟨hv.dcode, hv.duri, hv.dverifier, by rw [hk _ (by simp)]; exact hv.vcode, by rw [hk _ (by simp)]; exact hv.vuri,
        by rw [hk _ (by simp)]; exact hv.vverifier⟩
    · exact ⟨hcode, huri, hver, rfl, rfl, rfl⟩
  intro h
  unfold codeToken
  rw [wpp_pbind]
  refine wpp_mono (hvalid h) (fun _ _ h => h) ?_ (fun _ _ h => h.elim)
  intro h' valid hv
  refine returns_finally ?_ ?_ h'
  · unfold codeTokenBody
    refine returns_known (item_ok hv.vcode) (returns_await (fun r hr => ⟨some ac, hfound r hr, ?_⟩))
    dsimp only
    refine returns_bind (Q := fun _ => True) ?_ ?_
    · unfold validateAuthorizationCode
      refine returns_known (item_ok hv.vuri) ?_
      obtain ⟨hp1, hp2⟩ := pkce_run hpk
      rw [if_neg (by simp [inList_str.mpr hreg]), if_neg (by simp [hcl]), if_neg (by simp [pyEq_text.mpr hau.symm]),
        if_neg (by simpa using hp1)]
      refine returns_known (item_ok hv.vverifier) ?_
      rw [hp2]
      dsimp only
      rw [if_neg (by simp)]
      refine returns_await ?_
      intro r hr
      obtain ⟨t, rfl, ht⟩ := hnow r hr
      refine ⟨t, rfl, ?_⟩
      rw [if_neg (Int.not_le.mpr ht)]
      exact returns_ret trivial
    · intro _ _
      refine returns_await (fun r hr => ⟨some user, huser r hr, ?_⟩)
      dsimp only
      refine returns_await ?_
      intro r hr
      obtain ⟨henc, access, rfl, hta⟩ := hw.access _ r rfl hr
      refine ⟨access, rfl, ?_⟩
      refine returns_bind (returns_maybeRefresh (fun r => hw.refresh _ _ r rfl rfl)) ?_
      rintro refresh ⟨hr1, hr2⟩
      refine returns_mono (returns_runHooks (I := fun d => Val.EncD d ∧ (Val.dict d).Wf ∧ TokenMembers cfg d access refresh ∧
        (ac.scopes ≠ [] → Dict.get d (py! "scope") = some (.str (joinWith [32] ac.scopes)))) ?_ ?_ ?_) ?_
      · rintro f hf acc tr' e hs ⟨-, -, i3, i4⟩
        obtain ⟨g, hg, rfl⟩ := List.mem_map.mp hf
        exact (hh.response g hg acc valid tr' ⟨access, hr, i3.access, i4⟩ hs).1 e
      · rintro f hf acc tr' d hs hx ⟨i1, i2, i3, i4⟩
        obtain ⟨g, hg, rfl⟩ := List.mem_map.mp hf
        obtain ⟨e1, e2⟩ := (hh.response g hg acc valid tr' ⟨access, hr, i3.access, i4⟩ hs).2 d hx
        have hk := get_update_free (acc := acc) ((hb.tokenResponse g hg acc valid c user).keys tr' d hx)
        exact ⟨encD_update i1 e1, wf_update i2 e2, ⟨by rw [hk _ (by simp)]; exact i3.access, by rw [hk _ (by simp)]; exact i3.type,
          by rw [hk _ (by simp)]; exact i3.lifespan, by rw [hk _ (by simp)]; exact i3.refresh⟩, by rw [hk _ (by simp)]; exact i4⟩
      · refine ⟨encD_createToken hta hr1 (by rintro l ⟨⟩; exact henc), Props.wf_createToken _ _ _ _,
          tokenMembers_createToken _ _ _ _, ?_⟩
        intro hne
        obtain ⟨-, -, -, -, g5⟩ := Props.createToken_get cfg access refresh (some ac.scopes)
        rw [g5]
        cases hsc : ac.scopes with
        | nil => exact absurd hsc hne
        | cons => rfl
      · rintro d ⟨i1, i2, i3, -⟩
        exact ⟨i1, i2, access, refresh, hr, i3, handsOutRefresh_of i3 hr2⟩
  · unfold deleteCode
    exact returns_known (item_ok hv.vcode) (returns_call (fun r hr => ⟨(), hdel r hr, trivial⟩))

end Psion
