import Verif.Props.Revoke
import Verif.Props.WebAnswer
import Verif.Props.WebLogin
import Verif.Props.ExampleFlow
import Verif.Spec.Stack

/-!
# The example application answers, if every operation is performed
-/

namespace Psion.Props

open Psion Spec Example

variable {env : OEnv} {emailOk : PyStr → Bool}

/-! ## Headers that can be sent -/

theorem sendable_parse {m : Option PyStr} {headers : Dict PyStr PyStr} (hm : ∀ t, m = some t → ∀ c ∈ t, c < 256)
    (hh : ∀ k v, (k, v) ∈ headers → (∀ c ∈ k, c < 256) ∧ ∀ c ∈ v, c < 256) :
    ∀ k v, (k, v) ∈ parseHeaders m headers → (∀ c ∈ k, c < 256) ∧ ∃ t, v = some t ∧ ∀ c ∈ t, c < 256 := by
  intro k v hkv
  unfold parseHeaders FullDict.init dropNone at hkv
  obtain ⟨hmem, hsome⟩ := List.mem_filter.mp hkv
  rcases Dict.mem_update hmem with h | h
  · cases List.mem_singleton.mp h
    cases m with
    | none => cases hsome
    | some t => exact ⟨by decide, t, rfl, hm t rfl⟩
  · obtain ⟨⟨k', v'⟩, h1, h2⟩ := List.mem_map.mp h
    cases h2
    obtain ⟨h3, h4⟩ := hh k' v' h1
    exact ⟨h3, v', rfl, h4⟩

theorem sendable_json {fe : FloatEnv} {status : Nat} {headers : Dict PyStr PyStr} {v : Val} {r : Response}
    (h : jsonResponse fe status headers v = .ok r)
    (hh : ∀ k v, (k, v) ∈ headers → (∀ c ∈ k, c < 256) ∧ ∀ c ∈ v, c < 256) : SendableHeaders r := by
  unfold SendableHeaders
  rw [(jsonResponse_status h).2]
  exact sendable_parse (by rintro t ⟨⟩; decide) hh

theorem sendable_redirect {url : PyStr} {r : Response} (h : redirectResponse url [] = .ok r) : SendableHeaders r := by
  unfold redirectResponse at h
  split at h
  · cases h
  · rename_i loc hloc
    cases h
    intro k v hkv
    have : parseHeaders none [] = [] := rfl
    rw [this] at hkv
    cases List.mem_singleton.mp hkv
    refine ⟨by decide, loc, rfl, fun c hc => ?_⟩
    have := (C06_location_safe url loc hloc) c hc
    omega

/-! ## The library on a database that works -/

/-- The operation of the library was performed without error on some database without lone surrogates. -/
def LibPerformed (env : OEnv) (ev : Ev) : Prop :=
  ∃ d m m' a, PlainStore m ∧ exOp env d m ev.op = (m', ev.ans) ∧ ev.ans = .ok a

theorem lib_performed {tr : List WEv} (h : ∀ ev ∈ tr, Performed env ev) : ∀ ev ∈ libOf tr, LibPerformed env ev := by
  intro ev hev
  unfold libOf at hev
  obtain ⟨wev, hw, heq⟩ := List.mem_filterMap.mp hev
  obtain ⟨d, w, w', a, h1, h2, h3⟩ := h wev hw
  obtain ⟨o, ans⟩ := wev
  cases o <;> cases heq
  exact ⟨d, w.db, (exOp env d w.db _).1, a, h1, Prod.ext rfl (congrArg Prod.snd h2 : _), h3⟩

theorem performed_no_error {tr : List Ev} (h : ∀ ev ∈ tr, LibPerformed env ev) {o : Op} {e : OExc} :
    (⟨o, .error e⟩ : Ev) ∉ tr := by
  intro hm
  obtain ⟨d, m, m', a, -, -, h3⟩ := h _ hm
  cases h3

theorem performed_client {tr : List Ev} (h : ∀ ev ∈ tr, LibPerformed env ev) {id : PyStr} {c : Client}
    (hf : FoundClient tr id c) :
    ∃ row : ClientRow, c = row.client ∧ Encodable row.id ∧ ∀ s ∈ row.scopes, Encodable s := by
  obtain ⟨d, m, m', a, hp, hop, -⟩ := h _ hf
  have hans : (m.findClient id).map ClientRow.client = some c := Except.ok.inj (congrArg Prod.snd hop)
  cases hrow : m.findClient id with
  | none => rw [hrow] at hans; cases hans
  | some row =>
    rw [hrow] at hans
    cases hans
    exact ⟨row, rfl, hp.clients row (List.mem_of_find?_eq_some hrow)⟩

theorem allowed_row (row : ClientRow) {v : Val} (hv : ScopeArg v) :
    ∃ l, row.client.allowedScopes v = .ok l ∧ ∀ s ∈ l, s ∈ row.scopes := by
  rcases hv with rfl | ⟨ws, rfl⟩
  · exact ⟨row.scopes, rfl, fun _ h => h⟩
  · refine ⟨row.scopes.filter (fun s => decide (s ∈ ws)), ?_, fun s hs => (List.mem_filter.mp hs).1⟩
    change liftRes (filterIn (strList ws) row.scopes) = _
    rw [filterIn_strList]
    rfl

theorem performed_scopes {tr : List Ev} (h : ∀ ev ∈ tr, LibPerformed env ev) {id : PyStr} {c : Client} {v : Val}
    {l : List PyStr} (hf : FoundClient tr id c) (hv : ScopeArg v) (hl : c.allowedScopes v = .ok l) : ∀ s ∈ l, Encodable s := by
  obtain ⟨row, rfl, -, henc⟩ := performed_client h hf
  obtain ⟨l', hl', hsub⟩ := allowed_row row hv
  rw [hl] at hl'
  cases hl'
  exact fun s hs => henc s (hsub s hs)

theorem performed_code {tr : List Ev} (h : ∀ ev ∈ tr, LibPerformed env ev) {code : Val} {ac : AuthCode}
    (hf : FoundCode tr code ac) : ∀ s ∈ ac.scopes, Encodable s := by
  obtain ⟨d, m, m', a, hp, hop, -⟩ := h _ hf
  have hans : m.findCode code = some ac := Except.ok.inj (congrArg Prod.snd hop)
  cases code with
  | str code => exact hp.codes code ac (Dict.mem_of_get hans)
  | _ => cases hans

/-- Created access tokens are texts without lone surrogates. -/
theorem performed_access {tr : List Ev} (h : ∀ ev ∈ tr, LibPerformed env ev) {c : Client} {o : Owner} {s : List PyStr} {t : PyStr}
    (hm : (⟨.createAccess c o s, .ok t⟩ : Ev) ∈ tr) : Encodable t := by
  obtain ⟨d, m, m', a, -, hop, -⟩ := h _ hm
  have hans := congrArg Prod.snd hop
  change liftRes (createAccess env d c o s) = .ok t at hans
  cases hc : createAccess env d c o s with
  | error e => rw [hc] at hans; cases hans
  | ok t' =>
    rw [hc] at hans
    cases hans
    obtain ⟨_, _, jwt, -, -, he⟩ := createAccess_ok hc
    obtain ⟨b, -, hb⟩ := encode_bytes he
    exact utf8Encode_encodable hb

theorem performed_refresh {tr : List Ev} (h : ∀ ev ∈ tr, LibPerformed env ev) {c : Client} {u : Option User} {s : List PyStr}
    {t : PyStr} (hm : (⟨.createRefresh c u s, .ok t⟩ : Ev) ∈ tr) : Encodable t := by
  obtain ⟨d, m, m', a, hp, hop, -⟩ := h _ hm
  have hans := congrArg Prod.snd hop
  change (createRefresh m d c u s).2 = .ok t at hans
  unfold createRefresh at hans
  split at hans
  · cases hans
  · split at hans
    · rename_i r hr
      cases hans
      exact hp.refresh r (List.mem_of_find?_eq_some hr)
    · split at hans
      · cases hans
      · rename_i token ht
        split at hans
        · cases hans
          exact plain_secret d.choices32 ht
        · cases hans

theorem performed_oidc {tr : List Ev} (h : ∀ ev ∈ tr, LibPerformed env ev) {span : Int} (hclock : ClockRuns tr span)
    (user : User) : OidcWorks env.cr tr user span := by
  refine ⟨?_, ?_, ?_, hclock⟩
  · intro r hr
    obtain ⟨d, m, m', a, -, hop, -⟩ := h _ hr
    have hans := congrArg Prod.snd hop
    exact ⟨exKey, _, hans.symm, exKey_signs env.cr⟩
  · intro s r hr
    obtain ⟨d, m, m', a, hp, hop, ha⟩ := h _ hr
    dsimp only at ha
    rw [ha] at hop
    simp only [exOp] at hop
    cases hrow : m.findUser user.userId with
    | none => rw [hrow] at hop; cases hop
    | some row =>
      rw [hrow] at hop
      have hans : userinfo row s = a := Except.ok.inj (congrArg Prod.snd hop)
      rw [← hans] at ha
      exact ⟨_, ha, userinfo_usable (hp.users row (List.mem_of_find?_eq_some hrow)) s⟩
  · intro r hr
    obtain ⟨d, m, m', a, -, -, ha⟩ := h _ hr
    exact ⟨a, ha⟩

theorem sendable_noStore : ∀ k v, (k, v) ∈ noStoreHeaders → (∀ c ∈ k, c < 256) ∧ ∀ c ∈ v, c < 256 := by
  intro k v h
  unfold noStoreHeaders at h
  simp only [List.mem_cons, List.not_mem_nil, or_false, Prod.mk.injEq] at h
  rcases h with ⟨rfl, rfl⟩ | ⟨rfl, rfl⟩ <;> decide

theorem sendable_libErr {data : Dict PyStr PyStr} {x : OErr} (h : LibErr data x) :
    ∀ k v, (k, v) ∈ x.headers → (∀ c ∈ k, c < 256) ∧ ∀ c ∈ v, c < 256 := by
  intro k v hkv
  rcases h.headers with h | h <;> rw [h] at hkv
  · cases hkv
  · cases List.mem_singleton.mp hkv
    decide

/-- The hook of the example answers every token response in the making. -/
theorem performed_hook (hl : FloatLaws env.cr.fe) (hh : HashLengths env.he) {tr : List Ev}
    (h : ∀ ev ∈ tr, LibPerformed env ev) (hclock : ClockRuns tr exProvider.cfg.idTokenLifespan)
    (hcodes : ∀ code ac, FoundCode tr code ac → ac.scopes ≠ []) {token data : Dict PyStr Val} {id : PyStr} {client : Client}
    {user : User} {tr' : List Ev} (hfc : FoundClient tr id client) (ht : TokenLike exProvider.cfg tr client user token)
    (hs : tr' <:+: tr) : (∀ e, ¬ Exec (oidcTokenResponse env exProvider.cfg token data client user) tr' (.error e)) ∧
      ∀ d, Exec (oidcTokenResponse env exProvider.cfg token data client user) tr' (.ok (some d)) → Val.EncD d := by
  obtain ⟨code, ac, access, refresh, hc, ha, h1, -, -, -, h2⟩ := ht
  obtain ⟨row, rfl, hid, -⟩ := performed_client h hfc
  rw [if_neg (hcodes code ac hc)] at h2
  have hw := wpp_oidcTokenResponse (data := data) (user := user) hl hh (performed_oidc h hclock user)
    (encodable_ascii (s := exProvider.cfg.issuer) (by decide)) (client := row.client) hid hs h1 (performed_access h ha) h2
  exact ⟨fun e hx => wpp_exec_error hx hw (from_answers tr'), fun d hx => (wpp_exec_ok hx hw (from_answers tr') d rfl).1⟩

theorem performed_cooperates (hl : FloatLaws env.cr.fe) (hh : HashLengths env.he) {req : Request} {tr : List Ev}
    (hx : Partial (exProvider.token env (exHooks env) req) tr)
    (h : ∀ ev ∈ tr, LibPerformed env ev) (hclock : ClockRuns tr exProvider.cfg.idTokenLifespan)
    (hcodes : ∀ code ac, FoundCode tr code ac → ac.scopes ≠ []) : Cooperates exProvider.cfg (exHooks env) tr := by
  refine ⟨?_, ?_, ?_, ?_, ?_, ?_⟩
  · exact fun o e hm => absurd hm (performed_no_error h)
  · intro c o s t hm
    refine ⟨performed_access h hm, ?_⟩
    obtain ⟨pre, post, rfl⟩ := List.append_of_mem hm
    have hpre : ∀ ev ∈ pre, LibPerformed env ev := fun ev hev => h ev (List.mem_append_left _ hev)
    have hj : TokenOp env exProvider req pre (.createAccess c o s) :=
      wpp_partial hx (wpp_token (exHooks_benign env) exProvider req) answers_true rfl
    obtain ⟨g, -, -, -, ⟨_, id, hfc, -⟩, hg⟩ := hj
    cases g with
    | authorizationCode =>
      obtain ⟨u, -, code, ac, _, _, _, -, hc, -, -, -, -, -, -, -, -, -, rfl⟩ := hg
      exact performed_code hpre hc
    | clientCredentials =>
      obtain ⟨-, ⟨-, hs⟩ | ⟨_, ws, -, -, -, -, hs, -⟩⟩ := hg
      · exact performed_scopes hpre hfc (Or.inl rfl) hs
      · exact performed_scopes hpre hfc (scopeArg_list ws) hs
    | refreshToken =>
      obtain ⟨u, -, _, _, _, base, -, -, -, -, -, -, -, -, -, hs⟩ := hg
      exact performed_scopes hpre hfc (scopeArg_list base) hs
  · exact fun c u s t hm => performed_refresh h hm
  · intro id c v e hf hv he
    obtain ⟨row, rfl, -⟩ := performed_client h hf
    obtain ⟨l, hl', -⟩ := allowed_row row hv
    rw [he] at hl'
    cases hl'
  · intro f hf; cases hf
  · intro f hf token data id client user tr' hfc ht hs
    have hf : f = oidcTokenResponse env exProvider.cfg := List.mem_singleton.mp hf
    subst hf
    obtain ⟨h1, h2⟩ := performed_hook hl hh (data := data) h hclock hcodes hfc ht hs
    exact ⟨fun e hx => absurd hx (h1 e), h2⟩

/-- On a database that works the token endpoint answers, and the answer can be sent. -/
theorem token_stack (hl : FloatLaws env.cr.fe) (hh : HashLengths env.he) {req : Request} {tr : List Ev} {out : ORes Response}
    (hform : TokenForm req) (hquery : ∀ k v, Dict.get req.query k = some v → Encodable v)
    (h : ∀ ev ∈ tr, LibPerformed env ev) (hclock : ClockRuns tr exProvider.cfg.idTokenLifespan)
    (hcodes : ∀ code ac, FoundCode tr code ac → ac.scopes ≠ []) (hx : Exec (exProvider.token env (exHooks env) req) tr out) :
    ∃ r, out = .ok r ∧ SendableHeaders r := by
  have hb := exHooks_benign env
  have hco := performed_cooperates hl hh (exec_partial hx) h hclock hcodes
  obtain ⟨r, rfl, -⟩ := C44_partial env hl (exHooks env) hb exProvider req tr out hco hquery hform.header hform.code
    hform.verifier hx
  refine ⟨r, rfl, ?_⟩
  rcases token_response hb hx with ⟨token, -, hj⟩ | ⟨x, hx, hj⟩
  · exact sendable_json hj sendable_noStore
  · refine sendable_json hj fun k v hkv => ?_
    rcases Dict.mem_update hkv with hkv | hkv
    rotate_left
    · exact sendable_noStore k v hkv
    · rcases hx with hx | hx
      · exact sendable_libErr hx k v hkv
      · exfalso
        rcases hx with ⟨o, hm⟩ | ⟨acc, f, hf, -⟩ | ⟨code, ac, valid, id, c, user, access, refresh, -, hc, hfc, hca, f, hf, acc', tr', hk, hs, hx⟩ |
          ⟨_, -, -, ⟨⟩⟩ | ⟨id, c, v, hc, hsa, hv⟩ | ⟨-, -, ⟨⟩⟩ | ⟨_, ⟨⟩, -⟩
        · exact performed_no_error h hm
        · obtain ⟨g, hg, rfl⟩ := List.mem_map.mp hf
          cases hg
        · obtain ⟨g, hg, rfl⟩ := List.mem_map.mp hf
          have hg : g = oidcTokenResponse env exProvider.cfg := List.mem_singleton.mp hg
          subst hg
          exact (performed_hook hl hh h hclock hcodes hfc (tokenLike_of hc hca hk) hs).1 _ hx
        · obtain ⟨row, rfl, -⟩ := performed_client h hc
          obtain ⟨l, hl', -⟩ := allowed_row row hsa
          rw [hv] at hl'
          cases hl'

theorem never_raises_nonce {data : Dict PyStr PyStr} {tr : List Ev} {e : OExc} :
    ¬ Exec (oidcAuthorizationRequest data) tr (.error e) := by
  intro h
  unfold oidcAuthorizationRequest at h
  split at h <;> cases h

theorem performed_cooperatesA {tr : List Ev} (h : ∀ ev ∈ tr, LibPerformed env ev) : CooperatesA env (exHooks env) tr := by
  refine ⟨?_, ?_, ?_, ?_⟩
  · exact fun o e hm => absurd hm (performed_no_error h)
  · intro id c v e hf hv he
    obtain ⟨row, rfl, -⟩ := performed_client h hf
    obtain ⟨l, hl', -⟩ := allowed_row row hv
    rw [he] at hl'
    cases hl'
  · intro f hf data tr' e _ hx
    have hf : f = oidcAuthorizationRequest := List.mem_singleton.mp hf
    subst hf
    exact absurd hx never_raises_nonce
  · intro f hf; cases hf

/-- On a database that works the authorization endpoint answers, and the answer can be sent. -/
theorem authorize_stack {req : Request} {tr : List Ev} {out : ORes Response}
    (hquery : ∀ k v, Dict.get req.query k = some v → Encodable v) (h : ∀ ev ∈ tr, LibPerformed env ev)
    (hx : Exec (exProvider.authorize env (exHooks env) req) tr out) : ∃ r, out = .ok r ∧ SendableHeaders r := by
  have hb := exHooks_benign env
  have hco := performed_cooperatesA h
  obtain ⟨r, rfl, -⟩ := C45_partial env (exHooks env) hb exProvider req tr out hco
    (encodable_ascii (s := exProvider.cfg.errorUrl) (by decide)) hquery hx
  refine ⟨r, rfl, ?_⟩
  rcases wpp_exec_ok hx (wpp_authorize hb exProvider req) answers_true with hok | ⟨x, hf, he⟩
  · obtain ⟨_, _, _, url, -, -, hr⟩ := hok
    exact sendable_redirect hr
  · have hnil : x.headers = [] := by
      have happ : ∀ c u, (∃ id, FoundClient tr id c) →
          AuthApp (exHooks env) (Dict.del req.data (py! "response_type")) c u tr (.oauth x) → x.headers = [] := by
        rintro c u ⟨id, hfc⟩ (⟨o, hm⟩ | ⟨acc, f, hf, acc', tr', -, -, hx⟩ | ⟨code, valid, acc, f, hf, -⟩ | ⟨v, hsa, hv⟩)
        · exact absurd hm (performed_no_error h)
        · obtain ⟨g, hg, rfl⟩ := List.mem_map.mp hf
          have hg : g = oidcAuthorizationRequest := List.mem_singleton.mp hg
          subst hg
          exact absurd hx never_raises_nonce
        · obtain ⟨g, hg, rfl⟩ := List.mem_map.mp hf
          cases hg
        · obtain ⟨row, rfl, -⟩ := performed_client h hfc
          obtain ⟨l, hl', -⟩ := allowed_row row hsa
          rw [hv] at hl'
          cases hl'
      have hst : ∀ s, Dict.get req.data (py! "state") = some s → Encodable s := fun s hs => encodable_data hquery hs
      generalize hex : OExc.oauth x = ex at hf
      cases hf with
      | fatal d _ => cases hex; rfl
      | denied uri _ _ => cases hex; rfl
      | unsupported uri rt y _ _ _ _ hy => cases hex; exact hy.headers
      | lookup uri id _ _ hm => exact absurd hm (performed_no_error h)
      | lib uri y _ hy => cases hex; exact hy.headers
      | app uri id c u _ _ hfc ha => subst hex; exact happ c u ⟨id, hfc⟩ ha
      | encode uri code response _ hd he =>
        rcases he with he | ⟨_, _, _, _, rfl⟩
        · obtain ⟨u, hu⟩ := urlencodeVals_total hb hco hd hst
          rw [he] at hu
          cases hu
        · cases hex
    unfold authorizationError at he
    have redirect : ∀ u, errorRedirect u x = .ok r → SendableHeaders r := by
      intro u hu
      unfold errorRedirect at hu
      rw [hnil] at hu
      split at hu
      · cases hu
      · cases hr : redirectResponse _ [] with
        | error e => rw [hr] at hu; cases hu
        | ok r' => rw [hr] at hu; cases hu; exact sendable_redirect hr
    split at he
    · exact redirect _ he
    · split at he
      · cases he
      · exact redirect _ he

/-- On a database that works the revocation endpoint answers, and the answer can be sent. -/
theorem revoke_stack (hl : FloatLaws env.cr.fe) {req : Request} {tr : List Ev} {out : ORes (Option Response)}
    (hform : RevokeForm req) (hquery : ∀ k v, Dict.get req.query k = some v → Encodable v)
    (h : ∀ ev ∈ tr, LibPerformed env ev) (hx : Exec (exProvider.revoke env req) tr out) :
    ∃ r, out = .ok (some r) ∧ SendableHeaders r := by
  obtain ⟨r, rfl, -⟩ := C53_partial env hl exProvider req tr out (fun o e hm => absurd hm (performed_no_error h)) hquery
    hform.header hform.token hx
  refine ⟨r, rfl, ?_⟩
  rcases wpp_exec_ok hx (wpp_revoke env exProvider req) answers_true with hd | ⟨x, r', hf, hr, hj⟩
  · rcases hd with ⟨_, _, _, hn, _⟩ | ⟨_, _, r', _, _, _, hr, hj⟩
    · cases hn
    · cases hr
      exact sendable_json hj nofun
  · cases hr
    refine sendable_json hj ?_
    generalize hex : OExc.oauth x = ex at hf
    cases hf with
    | client y _ hy _ => cases hex; exact sendable_libErr hy
    | hint c _ _ _ => cases hex; exact nofun
    | app o _ hm => exact absurd hm (performed_no_error h)
    | header _ _ => cases hex

/-! ## The web layer -/

theorem redirectTo_ok {url : PyStr} (h : Encodable url) : ∃ r, redirectTo url = .ok r := by
  unfold redirectTo
  obtain ⟨loc, hloc⟩ := quotePlus_ok locSafe h
  rw [hloc]
  exact ⟨_, rfl⟩

theorem wexec_served {r : Res Reply} {tr : List WEv} {out : ORes Served} (hr : ∃ x, r = .ok x)
    (h : WExec (served r) tr out) : ∃ sv, out = .ok sv := by
  obtain ⟨x, rfl⟩ := hr
  obtain ⟨-, rfl⟩ := wexec_done h
  exact ⟨_, rfl⟩

/-- After an operation that was performed the program goes on. -/
theorem wexec_call {o : WOp} {α : Type} {f : o.Ans → WP α} {tr : List WEv} {out : ORes α} (h : WExec (WP.bind (WP.call o) f) tr out)
    (hp : ∀ ev ∈ tr, Performed env ev) :
    ∃ d w w' a rest, PlainStore w.db ∧ wOp env d w o = (w', .ok a) ∧ tr = ⟨o, .ok a⟩ :: rest ∧
      (∀ ev ∈ rest, Performed env ev) ∧ WExec (f a) rest out := by
  unfold WP.bind WP.call WProg.bind at h
  cases h with
  | op _ _ r tr' _ hx =>
    obtain ⟨d, w, w', a, h1, h2, h3⟩ := hp _ List.mem_cons_self
    have h3 : r = .ok a := h3
    rw [h3] at hx h2 ⊢
    exact ⟨d, w, w', a, tr', h1, h2, rfl, fun ev hev => hp ev (List.mem_cons_of_mem _ hev), hx⟩

theorem loggedIn_answers {req : WebRequest} (hacc : Acceptable req) {uid sid : PyStr} {tr : List WEv} {out : ORes Served}
    (h : WExec (loggedIn req uid sid) tr out) : ∃ sv, out = .ok sv := by
  obtain ⟨r, hr⟩ := redirectTo_ok (encodable_afterLogin hacc.plain.1 hacc.plain.2.2)
  unfold loggedIn at h
  rw [hr] at h
  obtain ⟨-, rfl⟩ := wexec_done h
  exact ⟨_, rfl⟩

theorem loginPost_answers {req : WebRequest} (hacc : Acceptable req) {user : Option User} {tr : List WEv} {out : ORes Served}
    (hp : ∀ ev ∈ tr, Performed env ev) (h : WExec (loginPost emailOk req user) tr out) : ∃ sv, out = .ok sv := by
  unfold loginPost at h
  cases user with
  | some u => exact wexec_served (redirectTo_ok (encodable_append hacc.plain.1 (encodable_ascii (by decide)))) h
  | none =>
    dsimp only at h
    split at h
    · exact wexec_served ⟨_, rfl⟩ h
    · obtain ⟨-, -, -, a, rest, -, -, -, hp, h⟩ := wexec_call h hp
      cases a with
      | none => exact wexec_served ⟨_, rfl⟩ h
      | some a =>
        obtain ⟨uid, pw⟩ := a
        dsimp only at h
        split at h
        · exact wexec_served ⟨_, rfl⟩ h
        · obtain ⟨-, -, -, a, rest, -, -, -, hp, h⟩ := wexec_call h hp
          cases a with
          | some sid => exact loggedIn_answers hacc h
          | none =>
            obtain ⟨-, -, -, a, rest, -, -, -, hp, h⟩ := wexec_call h hp
            obtain ⟨sid, hs, -⟩ := C10_secret_token a.val (by
              intro h0
              have := a.property
              rw [h0] at this
              cases this)
            rw [hs] at h
            obtain ⟨-, -, -, _, rest, -, -, -, hp, h⟩ := wexec_call h hp
            exact loggedIn_answers hacc h

/-- The two deletions of the logout, in either order. -/
theorem wexec_logout {uid : PyStr} {b : Bool} {f : Unit → WP Served} {tr : List WEv} {out : ORes Served}
    (h : WExec (WP.bind (if b then both (WP.call (.deleteRefresh uid)) (WP.call (.deleteSessions uid))
      else both (WP.call (.deleteSessions uid)) (WP.call (.deleteRefresh uid))) f) tr out)
    (hp : ∀ ev ∈ tr, Performed env ev) : ∃ rest, WExec (f ()) rest out := by
  have key : ∀ r s (rest : List WEv), WExec (WP.bind (.done (match r with | .error e => .error e | .ok () => s) : WP Unit) f) rest out →
      (∃ x, r = (.ok x : ORes Unit)) → (∃ x, s = (.ok x : ORes Unit)) → ∃ rest, WExec (f ()) rest out := by
    rintro r s rest h ⟨⟨⟩, rfl⟩ ⟨⟨⟩, rfl⟩
    exact ⟨rest, h⟩
  have ok : ∀ ev ∈ tr, ∃ a, ev.ans = .ok a := fun ev hev => by
    obtain ⟨_, _, _, a, -, -, h⟩ := hp ev hev
    exact ⟨a, h⟩
  cases b with
  | true =>
    rw [if_pos rfl] at h
    cases h with
    | op _ _ r t _ h =>
      cases h with
      | op _ _ s t _ h => exact key r s t h (ok _ List.mem_cons_self) (ok _ (List.mem_cons_of_mem _ List.mem_cons_self))
  | false =>
    rw [if_neg Bool.false_ne_true] at h
    cases h with
    | op _ _ r t _ h =>
      cases h with
      | op _ _ s t _ h => exact key r s t h (ok _ List.mem_cons_self) (ok _ (List.mem_cons_of_mem _ List.mem_cons_self))

/-- The end of a library endpoint that answers with headers that can be sent. -/
theorem ended_answers {r : Response} {out : ORes Served} (hs : SendableHeaders r) (h : Ended (.ok (some r)) out) :
    ∃ sv, out = .ok sv := by
  rcases h with ⟨_, h, _⟩ | ⟨h, _⟩ | ⟨r', h, ⟨reply, -, rfl⟩ | ⟨hn, -⟩⟩
  · cases h
  · cases h
  · exact ⟨_, rfl⟩
  · cases h
    exact absurd hs hn

theorem encodable_urlQuery {url : PyStr} (h : Encodable url) : Encodable (urlQuery url) := by
  have hd : ∀ c ∈ dropUnsafe url, c ∈ url := fun c hc => (List.mem_filter.mp hc).1
  have hu : ∀ c ∈ (match splitOnce 35 (dropUnsafe url) with | some (a, _) => a | none => dropUnsafe url), c ∈ dropUnsafe url := by
    split
    · rename_i a b hsp
      obtain ⟨he, -⟩ := splitOnce_some hsp
      intro c hc
      rw [he]
      simp [hc]
    · exact fun c hc => hc
  intro c hc
  unfold urlQuery at hc
  dsimp only at hc
  split at hc
  · rename_i a q hsp
    obtain ⟨he, -⟩ := splitOnce_some hsp
    have hm : c ∈ a ++ 63 :: q := by simp [hc]
    rw [← he] at hm
    exact h c (hd c (hu c hm))
  · cases hc

theorem library_answers (hl : FloatLaws env.cr.fe) (hh : HashLengths env.he) {req : WebRequest} (hacc : Acceptable req)
    {user : Option User} {tr : List WEv} {out : ORes Served} (hw : RunsWell env tr)
    (hroute : (req.route = .authorize ∧ req.method = py! "GET" ∧ user ≠ none) ∨
      ((req.route = .token ∨ req.route = .revoke) ∧ req.method = py! "POST"))
    (h : WExec (view env (exHooks env) emailOk req user) tr out) : ∃ sv, out = .ok sv := by
  obtain ⟨-, r, lib, hr, hends, hend⟩ := view_library hroute hacc.host h
  have ha := createRequest_faithful hr hacc.names
  have hp := lib_performed hw.performed
  have hquery : ∀ k v, Dict.get r.query k = some v → Encodable v := by
    intro k v hkv
    rw [ha.query] at hkv
    exact (encodable_urldecode (encodable_urlQuery hacc.plain.2.1) (Dict.mem_of_get hkv)).2
  generalize hro : req.route = route at hends
  cases hends with
  | authorized _ _ response hx =>
    obtain ⟨r', he, hs⟩ := authorize_stack hquery hp hx
    cases he
    exact ended_answers hs hend
  | notAuthorized _ _ e hx =>
    obtain ⟨r', he, hs⟩ := authorize_stack hquery hp hx
    cases he
  | token _ _ response hx =>
    obtain ⟨r', he, hs⟩ := token_stack hl hh (hacc.token hro (by simp_all) user r ha) hquery hp hw.clock hw.codes hx
    cases he
    exact ended_answers hs hend
  | noToken _ _ e hx =>
    obtain ⟨r', he, hs⟩ := token_stack hl hh (hacc.token hro (by simp_all) user r ha) hquery hp hw.clock hw.codes hx
    cases he
  | revoke _ _ _ hx =>
    obtain ⟨r', rfl, hs⟩ := revoke_stack hl (hacc.revoke hro (by simp_all) user r ha) hquery hp hx
    exact ended_answers hs hend

theorem view_answers (hl : FloatLaws env.cr.fe) (hh : HashLengths env.he) {req : WebRequest} (hacc : Acceptable req)
    {user : Option User} (hu : user ≠ none → req.cookie ≠ none) {tr : List WEv} {out : ORes Served} (hw : RunsWell env tr)
    (h : WExec (view env (exHooks env) emailOk req user) tr out) : ∃ sv, out = .ok sv := by
  have hlogin : Encodable (loginUrl req) := encodable_append hacc.plain.1 (encodable_ascii (by decide))
  have hlib := library_answers hl hh hacc hw (user := user) (emailOk := emailOk) (out := out)
  unfold view at h hlib
  cases hr : req.route with
  | home => rw [hr] at h; exact wexec_served ⟨_, rfl⟩ h
  | error => rw [hr] at h; exact wexec_served ⟨_, rfl⟩ h
  | login =>
    rw [hr] at h
    dsimp only at h
    split at h
    · unfold loginGet at h
      cases user with
      | some u => exact wexec_served (redirectTo_ok (encodable_append hacc.plain.1 (encodable_ascii (by decide)))) h
      | none => exact wexec_served ⟨_, rfl⟩ h
    · split at h
      · exact loginPost_answers hacc hw.performed h
      · exact wexec_served ⟨_, rfl⟩ h
  | logout =>
    rw [hr] at h
    dsimp only at h
    split at h
    · unfold logoutGet at h
      cases user with
      | none => exact wexec_served (redirectTo_ok hlogin) h
      | some u =>
        dsimp only at h
        cases hc : req.cookie with
        | none => exact absurd hc (hu nofun)
        | some c =>
          rw [hc] at h
          obtain ⟨-, -, -, b, rest, -, -, -, hp, h⟩ := wexec_call h hw.performed
          obtain ⟨rest, h⟩ := wexec_logout h hp
          exact wexec_served (redirectTo_ok hlogin) h
    · split at h
      · exact wexec_served (redirectTo_ok (encodable_append hacc.plain.1 (encodable_ascii (by decide)))) h
      · exact wexec_served ⟨_, rfl⟩ h
  | authorize =>
    rw [hr] at h hlib
    dsimp only at h
    split at h
    · rename_i hg
      have hm : req.method = py! "GET" := by
        have := of_decide_eq_true hg
        exact this.resolve_right (hacc.method hr)
      cases user with
      | some u => exact hlib (Or.inl ⟨rfl, hm, nofun⟩) (by simpa [hg] using h)
      | none =>
        unfold authorizeGet at h
        dsimp only at h
        obtain ⟨u, hu⟩ := C05_urlencode_total (loginUrl req) [(py! "next", some req.url)] (by
          intro k v hkv
          cases List.mem_singleton.mp hkv
          exact ⟨encodable_ascii (by decide), hacc.plain.2.1⟩)
        rw [hu] at h
        exact wexec_served (redirectTo_ok (encodable_urlencode hlogin hu)) h
    · exact wexec_served ⟨_, rfl⟩ h
  | revoke =>
    rw [hr] at h hlib
    dsimp only at h
    split at h
    · rename_i hg
      exact hlib (Or.inr ⟨Or.inr rfl, of_decide_eq_true hg⟩) (by simpa [hg] using h)
    · exact wexec_served ⟨_, rfl⟩ h
  | token =>
    rw [hr] at h hlib
    dsimp only at h
    split at h
    · rename_i hg
      exact hlib (Or.inr ⟨Or.inl rfl, of_decide_eq_true hg⟩) (by simpa [hg] using h)
    · exact wexec_served ⟨_, rfl⟩ h

end Psion.Props
