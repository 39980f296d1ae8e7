import Verif.Example.AloneLemmas
import Verif.Props.ExampleAuthorize
import Verif.Props.ExampleOidc
import Verif.Props.OidcSuccess
import Verif.Props.Serve

/-!
# Property C84: the example application serves its clients, from the authorization to the refresh token
-/

namespace Psion.Props

open Psion Spec Example

/-! ## Facts about undisturbed requests -/

section
variable {env : OEnv} {m m' : Store} {l : List (Draw × Ev)}

theorem exOp_plain (env : OEnv) (d : Draw) (m : Store) (o : Op) (hn : NewDraw m d o) (hp : PlainTokens m) :
    PlainTokens (exOp env d m o).1 := by
  have same : (exOp env d m o).1.refresh = m.refresh → PlainTokens (exOp env d m o).1 := by
    intro he
    exact ⟨by rw [he]; exact hp.distinct, by rw [he]; exact hp.plain⟩
  cases o with
  | createRefresh c u s =>
    show PlainTokens (createRefresh m d c u s).1
    unfold createRefresh
    split
    · exact hp
    · split
      · exact hp
      · split
        · exact hp
        · rename_i t ht
          split
          · refine ⟨?_, ?_⟩
            · rw [List.map_cons, List.nodup_cons]
              refine ⟨?_, hp.distinct⟩
              intro hm
              obtain ⟨r, hr, he⟩ := List.mem_map.mp hm
              have := hn.refresh _ _ _ t rfl ht
              unfold Store.findRefresh at this
              rw [List.find?_eq_none] at this
              exact this r hr (by simpa using he)
            · intro r hr
              rcases List.mem_cons.mp hr with rfl | hr
              · exact plain_secret d.choices32 ht
              · exact hp.plain r hr
          · exact hp
  | revoke c t hint =>
    exact ⟨List.Nodup.sublist (List.filter_sublist.map _) hp.distinct, fun r hr => hp.plain r (List.mem_filter.mp hr).1⟩
  | saveCode code data c u => exact same (exOp_refresh env d m _ rfl)
  | deleteCode v => exact same (exOp_refresh env d m _ rfl)
  | getUserinfo u s => exact same (exOp_refresh env d m _ rfl)
  | _ => exact hp

theorem alone_plain (h : Alone env m l m') (hp : PlainTokens m) : PlainTokens m' := by
  induction h with
  | nil => exact hp
  | step m m' m'' d ev l hop hn _ ih =>
    have := exOp_plain env d m ev.op hn hp
    rw [hop] at this
    exact ih this

theorem prompt_one {a b : List (Draw × Ev)} {d : Draw} {ev : Ev} (h : Prompt (a ++ (d, ev) :: b)) :
    d.stamp ≤ d.stamp2 ∧ d.stamp2 < d.stamp + 3600 := by
  unfold Prompt at h
  rw [List.flatMap_append, List.flatMap_cons, List.pairwise_append] at h
  have := h.2.1
  rw [List.pairwise_append] at this
  have := this.1
  simp only [List.pairwise_cons, List.mem_singleton, forall_eq] at this
  exact this.1

theorem prompt_two {a b c : List (Draw × Ev)} {d d' : Draw} {ev ev' : Ev} (h : Prompt (a ++ (d, ev) :: (b ++ (d', ev') :: c))) :
    d.stamp ≤ d'.stamp ∧ d'.stamp < d.stamp + 3600 := by
  unfold Prompt at h
  rw [List.flatMap_append, List.flatMap_cons, List.pairwise_append] at h
  have := h.2.1
  rw [List.pairwise_append] at this
  refine this.2.2 d.stamp (by simp) d'.stamp ?_
  rw [List.flatMap_append, List.flatMap_cons]
  simp

/-- The clock of an undisturbed request. -/
theorem alone_clock (h : Alone env m l m') (hp : Prompt l) : ClockRuns (events l) 36000 := by
  refine ⟨?_, ?_⟩
  · intro r hr
    obtain ⟨pre, post, he⟩ := List.append_of_mem hr
    obtain ⟨a, b, d, m1, m2, -, -, -, -, hop, -, -⟩ := alone_event h he
    cases hop
    exact ⟨_, rfl⟩
  · intro pre mid post t t' he
    obtain ⟨a, b, d, rfl, -, hb⟩ := events_split he
    obtain ⟨b1, b2, d', rfl, -, -⟩ := events_split hb
    obtain ⟨m1, m2, -, hop, -, h2⟩ := alone_split h
    obtain ⟨m3, m4, -, hop', -, -⟩ := alone_split h2
    cases hop
    cases hop'
    obtain ⟨h1, h2⟩ := prompt_two hp
    exact ⟨h1, Int.lt_of_lt_of_le h2 (by omega)⟩

end

/-! ## The user information -/

theorem fold_mem {scopes : List PyStr} : ∀ {l : List (PyStr × List (PyStr × Val))} {d : Dict PyStr Val} {kv : PyStr × Val},
    kv ∈ l.foldl (fun d sc => if has scopes sc.1 then Dict.update d sc.2 else d) d → kv ∈ d ∨ ∃ sc ∈ l, kv ∈ sc.2
  | [], d, kv, h => Or.inl h
  | sc :: l, d, kv, h => by
    rw [List.foldl_cons] at h
    rcases fold_mem h with h | ⟨x, hx, h⟩
    · split at h
      · rcases Dict.mem_update h with h | h
        · exact Or.inl h
        · exact Or.inr ⟨sc, List.mem_cons_self, h⟩
      · exact Or.inl h
    · exact Or.inr ⟨x, List.mem_cons_of_mem _ hx, h⟩

theorem scopeClaims_names (row : UserRow) : ∀ sc ∈ scopeClaims row, ∀ kv ∈ sc.2, (∀ c ∈ kv.1, c < 128) ∧
    kv.1 ≠ py! "jti" ∧ kv.1 ≠ py! "max_age" := by
  have key : ∀ sc ∈ (scopeClaims row).map (fun sc => sc.2.map Prod.fst), ∀ k ∈ sc, (∀ c ∈ k, c < 128) ∧
      k ≠ py! "jti" ∧ k ≠ py! "max_age" := by
    simp only [scopeClaims, List.map_cons, List.map_nil]
    decide
  intro sc hsc kv hkv
  exact key _ (List.mem_map.mpr ⟨sc, hsc, rfl⟩) _ (List.mem_map.mpr ⟨kv, hkv, rfl⟩)

theorem userinfo_usable {row : UserRow} (hp : PlainUser row) (scopes : List PyStr) : UsableInfo (userinfo row scopes) := by
  have mem : ∀ kv ∈ userinfo row scopes, kv = (py! "sub", .str row.id) ∨ ∃ sc ∈ scopeClaims row, kv ∈ sc.2 := by
    intro kv hkv
    rw [userinfo_raw] at hkv
    rcases fold_mem (List.mem_filter.mp hkv).1 with h | h
    · exact Or.inl (List.mem_singleton.mp h)
    · exact Or.inr h
  have absent : ∀ k, k ≠ py! "sub" → (∀ sc ∈ scopeClaims row, ∀ kv ∈ sc.2, kv.1 ≠ k) → dget (userinfo row scopes) k = .none := by
    intro k hk hno
    unfold dget
    cases hg : Dict.get (userinfo row scopes) k with
    | none => rfl
    | some v =>
      rcases mem _ (Dict.mem_of_get hg) with h | ⟨sc, hsc, h⟩
      · exact absurd (congrArg Prod.fst h) hk
      · exact absurd rfl (hno sc hsc _ h)
  refine ⟨userinfo_wf _ _, ?_, userinfo_others _ _, ?_, ?_⟩
  · rw [encD_iff]
    intro kv hkv
    rcases mem kv hkv with rfl | ⟨sc, hsc, h⟩
    · exact ⟨encodable_ascii (s := py! "sub") (by decide), hp.1⟩
    · exact ⟨encodable_ascii (scopeClaims_names row sc hsc kv h).1, hp.2 _ _ _ _ hsc h⟩
  · intro k hk
    simp only [List.mem_cons, List.not_mem_nil, or_false] at hk
    rcases hk with rfl | rfl
    · rcases userinfo_discloses row scopes (py! "sub") with ⟨-, h⟩ | ⟨h, -⟩ | ⟨h, -⟩
      · exact Or.inr ⟨_, h⟩
      · exact absurd rfl h
      · exact absurd rfl h
    · exact Or.inl (absent _ (by decide) (fun sc hsc kv h => (scopeClaims_names row sc hsc kv h).2.1))
  · exact Or.inl (absent _ (by decide) (fun sc hsc kv h => (scopeClaims_names row sc hsc kv h).2.2))

/-! ## The adapter during an undisturbed request -/

section
variable {env : OEnv} {m m' : Store} {l : List (Draw × Ev)} {row : ClientRow} {urow : UserRow}

/-- Tokens are created without failure. -/
theorem alone_works (hl : FloatLaws env.cr.fe) (h : Alone env m l m') (hp : Prompt l) (ht : PlainTokens m)
    (hc : m.findClient row.id = some row) (hu : m.findUser urow.id = some urow) (hce : Encodable row.id)
    (hue : Encodable urow.id) {S : List PyStr → Prop} (hS : ∀ s, S s → ∀ x ∈ s, Encodable x) :
    Works (events l) row.id row.client (.user (some urow.user)) S := by
  refine ⟨?_, ?_, ?_⟩
  · intro r hr
    obtain ⟨pre, post, he⟩ := List.append_of_mem hr
    obtain ⟨a, b, d, m1, m2, -, -, -, h1, hop, -, -⟩ := alone_event h he
    have : Except.ok ((m1.findClient row.id).map ClientRow.client) = r := congrArg Prod.snd hop
    rw [← this, (alone_find h1).1, hc]
    rfl
  · intro s r hs hr
    obtain ⟨pre, post, he⟩ := List.append_of_mem hr
    obtain ⟨a, b, d, m1, m2, rfl, -, -, h1, hop, -, -⟩ := alone_event h he
    obtain ⟨p1, p2⟩ := prompt_one hp
    obtain ⟨t, hx, hte⟩ := createAccess_served hl (c := row.client) (u := urow.user) hce hue (hS s hs) p1 p2
    have : liftRes (createAccess env d row.client (.user (some urow.user)) s) = r := congrArg Prod.snd hop
    rw [hx] at this
    exact ⟨hS s hs, t, this.symm, hte⟩
  · intro u s r hu' hs hr
    cases hu'
    obtain ⟨pre, post, he⟩ := List.append_of_mem hr
    obtain ⟨a, b, d, m1, m2, rfl, -, -, h1, hop, hn, -⟩ := alone_event h he
    obtain ⟨t, rt, hx, hte, -⟩ := createRefresh_served (scopes := s) (c := row.client) (u := urow.user) (alone_plain h1 ht)
      (by rw [(alone_find h1).1]; show (m.findClient row.id).isSome = true; rw [hc]; rfl)
      (by rw [(alone_find h1).2]; show (m.findUser urow.id).isSome = true; rw [hu]; rfl) (fun t => hn.refresh _ _ _ t rfl)
    have : (createRefresh m1 d row.client (some urow.user) s).2 = r := congrArg Prod.snd hop
    exact ⟨t, this.symm.trans hx, hte⟩

theorem alone_user (h : Alone env m l m') (hu : m.findUser urow.id = some urow) (r : ORes (Option User))
    (hr : (⟨.findUser urow.id, r⟩ : Ev) ∈ events l) : r = .ok (some urow.user) := by
  obtain ⟨pre, post, he⟩ := List.append_of_mem hr
  obtain ⟨a, b, d, m1, m2, -, -, -, h1, hop, -, -⟩ := alone_event h he
  have : Except.ok ((m1.findUser urow.id).map UserRow.user) = r := congrArg Prod.snd hop
  rw [← this, (alone_find h1).2, hu]
  rfl

theorem alone_now (h : Alone env m l m') {t : Int} (hlt : ∀ p ∈ l, p.1.now < t) (r : ORes Int)
    (hr : (⟨.now, r⟩ : Ev) ∈ events l) : ∃ n : Int, r = .ok n ∧ n < t := by
  obtain ⟨pre, post, he⟩ := List.append_of_mem hr
  obtain ⟨a, b, d, m1, m2, rfl, -, -, h1, hop, -, -⟩ := alone_event h he
  cases hop
  exact ⟨_, rfl, hlt _ (List.mem_append_right _ List.mem_cons_self)⟩

theorem alone_info (h : Alone env m l m') {u : User} {s : List PyStr} {r : ORes (Dict PyStr Val)}
    (hr : (⟨.getUserinfo u s, r⟩ : Ev) ∈ events l) :
    (m.findUser u.userId = none ∧ r = dbError) ∨ ∃ x, m.findUser u.userId = some x ∧ r = .ok (userinfo x s) := by
  obtain ⟨pre, post, he⟩ := List.append_of_mem hr
  obtain ⟨a, b, d, m1, m2, -, -, -, h1, hop, -, -⟩ := alone_event h he
  rw [← (alone_find h1).2]
  simp only [exOp] at hop
  split at hop
  · rename_i hx
    exact Or.inl ⟨hx, (congrArg Prod.snd hop).symm⟩
  · rename_i x hx
    exact Or.inr ⟨x, hx, (congrArg Prod.snd hop).symm⟩

theorem alone_oidc (h : Alone env m l m') (hp : Prompt l) (hu : m.findUser urow.id = some urow) (hpu : PlainUser urow) :
    OidcWorks env.cr (events l) urow.user 36000 := by
  refine ⟨?_, ?_, ?_, alone_clock h hp⟩
  · intro r hr
    obtain ⟨pre, post, he⟩ := List.append_of_mem hr
    obtain ⟨a, b, d, m1, m2, -, -, -, -, hop, -, -⟩ := alone_event h he
    cases hop
    exact ⟨_, _, rfl, exKey_signs _⟩
  · intro s r hr
    rcases alone_info h hr with ⟨hn, -⟩ | ⟨x, hx, rfl⟩
    · rw [show urow.user.userId = urow.id from rfl, hu] at hn
      cases hn
    · rw [show urow.user.userId = urow.id from rfl, hu] at hx
      cases hx
      exact ⟨_, rfl, userinfo_usable hpu s⟩
  · intro r hr
    obtain ⟨pre, post, he⟩ := List.append_of_mem hr
    obtain ⟨a, b, d, m1, m2, -, -, -, -, hop, -, -⟩ := alone_event h he
    cases hop
    exact ⟨_, rfl⟩

end

/-! ## The operations of a token request -/

theorem work_first {data : Dict PyStr PyStr} {ops a b : List Op} {o : Op} (hw : TokenWork data ops) (hp : a ++ o :: b <+: ops)
    (ho : (∃ v, o = .getCode v) ∨ ∃ t, o = .getRefresh t) : a = [] := by
  obtain ⟨c, rfl⟩ := hp
  cases a with
  | nil => rfl
  | cons x a =>
    exfalso
    have hm : o ∈ (a ++ o :: b) ++ c := by simp
    generalize hr : (a ++ o :: b) ++ c = rest at hm
    have hw' : TokenWork data (x :: rest) := by rw [← hr]; exact hw
    clear hr hw
    rename TokenWork data (x :: rest) => hw
    rcases ho with ⟨v, rfl⟩ | ⟨t, rfl⟩ <;> cases hw <;> simp at hm

theorem work_after_refresh {data : Dict PyStr PyStr} {ops a b : List Op} {c : Client} {u : Option User} {s : List PyStr}
    (hw : TokenWork data ops) (hp : a ++ .createRefresh c u s :: b <+: ops) : ∀ o ∈ b, writesRefresh o = false := by
  obtain ⟨t, ht⟩ := hp
  cases hw with
  | nothing => simp at ht
  | credentials _ _ =>
    rcases a with _ | ⟨x, _ | ⟨y, a⟩⟩ <;> simp at ht
  | refresh _ _ _ _ _ =>
    rcases a with _ | ⟨x, _ | ⟨y, _ | ⟨z, a⟩⟩⟩ <;> simp at ht
    obtain ⟨-, -, -, rfl, -⟩ := ht
    intro o ho
    cases ho
  | failed _ _ =>
    rcases a with _ | ⟨x, _ | ⟨y, a⟩⟩ <;> simp at ht
  | refused _ _ =>
    rcases a with _ | ⟨x, _ | ⟨y, _ | ⟨z, a⟩⟩⟩ <;> simp at ht
  | code _ _ _ _ _ =>
    rcases a with _ | ⟨x, _ | ⟨y, _ | ⟨z, a⟩⟩⟩ <;> simp at ht
  | codeRefresh _ _ _ _ _ =>
    rcases a with _ | ⟨x, _ | ⟨y, _ | ⟨z, _ | ⟨w, a⟩⟩⟩⟩ <;> simp at ht
    obtain ⟨-, -, -, h⟩ := ht
    intro o ho
    rcases b with _ | ⟨o1, _ | ⟨o2, b⟩⟩
    · cases ho
    · simp at h
      rw [List.mem_singleton.mp ho, h.1]
      rfl
    · simp at h

section
variable {env : OEnv} {m m' : Store} {l : List (Draw × Ev)} {row : ClientRow} {urow : UserRow} {req : Request}
  {out : ORes Response}

theorem storeOps_split {pre post : List Ev} {ev : Ev} (h : events l = pre ++ ev :: post) (ht : touchesStore ev.op = true) :
    storeOps (events l) = storeOps pre ++ ev.op :: storeOps post := by
  rw [h, storeOps_append]
  congr 1
  simp [storeOps, ht]

theorem quiet_of_storeOps {tr : List Ev} (h : storeOps tr = []) : ∀ ev ∈ tr, writesCodes ev.op = false ∧ writesRefresh ev.op = false := by
  intro ev hev
  cases ht : touchesStore ev.op with
  | true =>
    have := mem_storeOps hev ht
    rw [h] at this
    cases this
  | false =>
    cases hop : ev.op <;> rw [hop] at ht <;> first | exact ⟨rfl, rfl⟩ | cases ht

/-- A look-up of the request sees the codes and tokens that were stored before. -/
theorem alone_lookup (h : Alone env m l m') (hx : Exec (exProvider.token env (exHooks env) req) (events l) out) {o : Op}
    {r : ORes o.Ans} (hr : (⟨o, r⟩ : Ev) ∈ events l) (ho : (∃ v, o = .getCode v) ∨ ∃ t, o = .getRefresh t) :
    ∃ d m1 m2, exOp env d m1 o = (m2, r) ∧ m1.codes = m.codes ∧ m1.refresh = m.refresh := by
  obtain ⟨ops, hw, hpre⟩ := C82_token env _ (exHooks_benign env) exProvider req _ (exec_partial hx)
  obtain ⟨pre, post, he⟩ := List.append_of_mem hr
  have ht : touchesStore o = true := by rcases ho with ⟨v, rfl⟩ | ⟨t, rfl⟩ <;> rfl
  rw [storeOps_split he ht] at hpre
  have h0 := work_first hw hpre ho
  obtain ⟨a, b, d, m1, m2, -, ha, -, h1, hop, -, -⟩ := alone_event h he
  have hq := quiet_of_storeOps h0
  rw [← ha] at hq
  exact ⟨d, m1, m2, hop, alone_codes h1 (fun ev hev => (hq ev hev).1), alone_refresh h1 (fun ev hev => (hq ev hev).2)⟩

theorem alone_getCode (h : Alone env m l m') (hx : Exec (exProvider.token env (exHooks env) req) (events l) out) {code : PyStr}
    {ac : AuthCode} (hc : Dict.get m.codes code = some ac) (r : ORes (Option AuthCode))
    (hr : (⟨.getCode (.str code), r⟩ : Ev) ∈ events l) : r = .ok (some ac) := by
  obtain ⟨d, m1, m2, hop, h1, -⟩ := alone_lookup h hx hr (Or.inl ⟨_, rfl⟩)
  have : Except.ok (m1.findCode (.str code)) = r := congrArg Prod.snd hop
  rw [← this]
  show Except.ok (Dict.get m1.codes code) = _
  rw [h1, hc]

theorem alone_getRefresh (h : Alone env m l m') (hx : Exec (exProvider.token env (exHooks env) req) (events l) out)
    {token : PyStr} {rt : RefreshTok} (hc : m.findRefresh token = some rt) (r : ORes (Option RefreshTok))
    (hr : (⟨.getRefresh token, r⟩ : Ev) ∈ events l) : r = .ok (some rt) := by
  obtain ⟨d, m1, m2, hop, -, h1⟩ := alone_lookup h hx hr (Or.inr ⟨_, rfl⟩)
  have : Except.ok (m1.findRefresh token) = r := congrArg Prod.snd hop
  rw [← this]
  unfold Store.findRefresh at hc ⊢
  rw [h1, hc]

/-- The access token of the response can be read for an hour. -/
theorem alone_reads (hl : FloatLaws env.cr.fe) (h : Alone env m l m') {c : Client} {u : User} {s : List PyStr} {t : PyStr}
    (hr : (⟨.createAccess c (.user (some u)) s, .ok t⟩ : Ev) ∈ events l) :
    ∃ p ∈ l, ∀ n1 n2, p.1.stamp ≤ n1 → n1 < p.1.stamp + 3600 → p.1.stamp ≤ n2 → n2 < p.1.stamp + 3600 →
      Reads env t n1 n2 p.1.stamp c.clientId u.userId (joinWith [32] s) := by
  obtain ⟨pre, post, he⟩ := List.append_of_mem hr
  obtain ⟨a, b, d, m1, m2, rfl, -, -, h1, hop, -, -⟩ := alone_event h he
  obtain ⟨sub, ⟨u', hu, rfl⟩, hreads⟩ := C65_content env hl d m1 m2 c _ s t hop
  cases hu
  exact ⟨_, List.mem_append_right _ List.mem_cons_self, hreads⟩

/-- The refresh token of the response is stored when the request is finished. -/
theorem alone_refreshed (h : Alone env m l m') (ht : PlainTokens m)
    (hx : Exec (exProvider.token env (exHooks env) req) (events l) out)
    (hc : m.findClient row.id = some row) (hu : m.findUser urow.id = some urow) {s : List PyStr} {t : PyStr}
    (hr : (⟨.createRefresh row.client (some urow.user) s, .ok t⟩ : Ev) ∈ events l) :
    ∃ rt, m'.findRefresh t = some rt ∧ rt.clientId = row.id ∧ rt.userId = urow.id ∧
      (rt ∈ m.refresh ∨ (∀ x ∈ m.refresh, ¬ (x.clientId = row.id ∧ x.userId = urow.id)) ∧ rt.scopes = s ∧
        ∃ p ∈ l, rt.expiration = p.1.now + 14 * 86400 * 1000000) := by
  obtain ⟨ops, hw, hpre⟩ := C82_token env _ (exHooks_benign env) exProvider req _ (exec_partial hx)
  obtain ⟨pre, post, he⟩ := List.append_of_mem hr
  rw [storeOps_split he rfl] at hpre
  have hafter := work_after_refresh hw hpre
  obtain ⟨a, b, d, m1, m2, rfl, ha, hb, h1, hop, hn, h2⟩ := alone_event h he
  have hm1 : m1.refresh = m.refresh := by
    refine alone_refresh h1 ?_
    intro ev hev
    cases hw' : writesRefresh ev.op with
    | false => rfl
    | true =>
      exfalso
      rw [ha] at hev
      have htouch : touchesStore ev.op = true := by cases hop' : ev.op <;> rw [hop'] at hw' <;> first | rfl | cases hw'
      have hmem := mem_storeOps hev htouch
      obtain ⟨x, y, hxy⟩ := List.append_of_mem hmem
      obtain ⟨rest, hrest⟩ := hpre
      cases hop' : ev.op with
      | createRefresh c2 u2 s2 =>
        have := work_after_refresh (a := x) (b := y ++ .createRefresh row.client (some urow.user) s :: storeOps post) hw (c := c2)
          (u := u2) (s := s2) ⟨rest, by rw [← hrest, hxy, hop']; simp⟩ (.createRefresh row.client (some urow.user) s) (by simp)
        cases this
      | revoke c2 t2 h2 =>
        rw [hop'] at hmem
        have : Op.revoke c2 t2 h2 ∈ ops := by rw [← hrest]; simp [hmem]
        cases hw <;> simp at this
      | _ => rw [hop'] at hw'; cases hw'
  obtain ⟨t', rt, hx1, -, hx2, hx3, hx4, hx5⟩ := createRefresh_served (scopes := s) (c := row.client) (u := urow.user)
    (alone_plain h1 ht)
    (by rw [(alone_find h1).1]; show (m.findClient row.id).isSome = true; rw [hc]; rfl)
    (by rw [(alone_find h1).2]; show (m.findUser urow.id).isSome = true; rw [hu]; rfl) (fun t => hn.refresh _ _ _ t rfl)
  have e1 : (createRefresh m1 d row.client (some urow.user) s).2 = .ok t := congrArg Prod.snd hop
  have e2 : (createRefresh m1 d row.client (some urow.user) s).1 = m2 := congrArg Prod.fst hop
  rw [hx1] at e1
  cases e1
  have hm' : m'.refresh = m2.refresh := by
    refine alone_refresh h2 ?_
    intro ev hev
    cases hw' : writesRefresh ev.op with
    | false => rfl
    | true =>
      rw [hb] at hev
      have htouch : touchesStore ev.op = true := by cases hop' : ev.op <;> rw [hop'] at hw' <;> first | rfl | cases hw'
      rw [hafter _ (mem_storeOps hev htouch)] at hw'
      cases hw'
  refine ⟨rt, ?_, hx3, hx4, ?_⟩
  · rw [e2] at hx2
    unfold Store.findRefresh at hx2 ⊢
    rw [hm']
    exact hx2
  · rw [hm1] at hx5
    rcases hx5 with h | ⟨h, rfl⟩
    · exact Or.inl h
    · exact Or.inr ⟨h, rfl, _, List.mem_append_right _ List.mem_cons_self, rfl⟩

end

/-! ## C84 -/

theorem exScopes_plain : ∀ s ∈ standardScopes, Encodable s ∧ s ≠ [] ∧ ∀ c ∈ s, isPySpace c = false := by
  have key : ∀ s ∈ standardScopes, (∀ c ∈ s, c < 128) ∧ s ≠ [] ∧ ∀ c ∈ s, isPySpace c = false := by decide
  intro s hs
  obtain ⟨h1, h2⟩ := key s hs
  exact ⟨encodable_ascii h1, h2⟩

/-- The answer to the exchange: an access token for the client, the user and the scopes that can be read for an hour; an ID token
if the scopes contain `openid`; a refresh token of the client and the user, which is stored, if the client is registered for them;
and the code is no longer stored. -/
def ServedExchange (env : OEnv) (m : Store) (l : List (Draw × Ev)) (m' : Store) (row : ClientRow) (urow : UserRow) (code : PyStr)
    (scopes : List PyStr) (r : Response) : Prop :=
  ∃ d access, r.status = 200 ∧ JsonBody env.cr.fe r d ∧
    Dict.get d (py! "token_type") = some (.str (py! "Bearer")) ∧ Dict.get d (py! "expires_in") = some (.int 3600) ∧
    Dict.get d (py! "access_token") = some (.str access) ∧
    (∃ p ∈ l, ∀ n1 n2, p.1.stamp ≤ n1 → n1 < p.1.stamp + 3600 → p.1.stamp ≤ n2 → n2 < p.1.stamp + 3600 →
      Reads env access n1 n2 p.1.stamp row.id urow.id (joinWith [32] scopes)) ∧
    (py! "openid" ∈ scopes → ∃ tok, ∃ p ∈ l, Dict.get d (py! "id_token") = some (.str tok) ∧
      IdTokenSays env tok access row.id urow scopes p.1.stamp) ∧
    (py! "refresh_token" ∈ row.grantTypes → ∃ t rt, Dict.get d (py! "refresh_token") = some (.str t) ∧
      m'.findRefresh t = some rt ∧ rt.clientId = row.id ∧ rt.userId = urow.id ∧
      (rt ∈ m.refresh ∨ (∀ x ∈ m.refresh, ¬ (x.clientId = row.id ∧ x.userId = urow.id)) ∧ rt.scopes = scopes ∧
        ∃ p ∈ l, rt.expiration = p.1.now + 14 * 86400 * 1000000)) ∧
    Dict.get m'.codes code = none

/-- C84, exchange: a legitimate exchange of a stored code that has not expired, which nothing disturbs, is served. -/
theorem C84_exchange (env : OEnv) (hl : FloatLaws env.cr.fe) (hh : HashLengths env.he) (m m' : Store) (l : List (Draw × Ev))
    (row : ClientRow) (urow : UserRow) (req : Request) (code : PyStr) (ac : AuthCode) (out : ORes Response)
    (hc : m.findClient row.id = some row) (hce : Encodable row.id) (hu : m.findUser urow.id = some urow) (hue : PlainUser urow)
    (ht : PlainTokens m) (hcode : Dict.get m.codes code = some ac) (hac : ac.clientId = row.id) (hau : ac.userId = urow.id)
    (hsc : ac.scopes ≠ [] ∧ ∀ s ∈ ac.scopes, s ∈ standardScopes) 
    (hr : Exchanges env req row code ac.redirectUri ac.challenge ac.challengeMethod)
    (halone : Alone env m l m') (hprompt : Prompt l) (hnow : ∀ p ∈ l, p.1.now < ac.expiration)
    (hx : Exec (exProvider.token env (exHooks env) req) (events l) out) :
    ∃ r, out = .ok r ∧ ServedExchange env m l m' row urow code ac.scopes r := by
  obtain ⟨meth, hi⟩ := hr.client
  obtain ⟨v, hv1, hv2, hv3⟩ := hr.verifier
  have hplain : ∀ s ∈ ac.scopes, Encodable s := fun s hs => (exScopes_plain s (hsc.2 s hs)).1
  have hw : Works (events l) row.id row.client (.user (some urow.user)) (fun s => s = ac.scopes) :=
    alone_works hl halone hprompt ht hc hu hce hue.1 (by rintro s rfl; exact hplain)
  have ho := alone_oidc halone hprompt hu hue
  have hfound := alone_getCode halone hx hcode
  have hnow' := alone_now halone hnow
  have huser : ∀ r, (⟨.findUser ac.userId, r⟩ : Ev) ∈ events l → r = .ok (some urow.user) := by
    rw [hau]
    exact alone_user halone hu
  have hdel : ∀ r, (⟨.deleteCode (.str code), r⟩ : Ev) ∈ events l → r = .ok () := by
    intro r hr
    obtain ⟨pre, post, he⟩ := List.append_of_mem hr
    obtain ⟨a, b, d, m1, m2, -, -, -, -, hop, -, -⟩ := alone_event halone he
    exact (congrArg Prod.snd hop).symm
  obtain ⟨r, d, rfl, ⟨hst, hd, access, ha, hda, hdt, hde⟩, href⟩ := C76_authorization_code env hl (exHooks env) (exHooks_benign env)
    exProvider req (events l) out meth row.id row.client code ac.redirectUri v ac urow.user (by decide) hr.type hi hr.grant hw
    (hooksWork_oidc hl hh ho (encodable_ascii (by decide)) hce hsc.1 (fun r hr => (hw.access _ r rfl hr).2)) hr.code.1 hr.uri.1 hv1
    ⟨hr.code.2, hr.uri.2.1, hv2⟩ hfound hac rfl hr.uri.2.2 hv3 hnow' huser hdel hx
  refine ⟨r, rfl, d, access, hst, hd, hdt, hde, hda, alone_reads hl halone ha, ?_, ?_, ?_⟩
  · intro hopen
    obtain ⟨r', d', access', tok, key, alg, now, ws, info, hrr, -, hd', -, -, hda', hid, hkey, hstamp, hinfo, hwords, hgood⟩ :=
      C81_exchange env hl hh exProvider req (events l) (.ok r) meth row.id row.client code ac.redirectUri v ac urow.user (by decide)
        hr.type hi hr.grant hw (encodable_ascii (by decide)) hce ho
        (by
          intro u s info hm
          rcases alone_info halone hm with ⟨-, h⟩ | ⟨x, -, h⟩
          · cases h
          · cases h
            exact ⟨userinfo_wf _ _, userinfo_others _ _⟩)
        ⟨_, hopen, [], [], rfl⟩ hr.code.1 hr.uri.1 hv1 ⟨hr.code.2, hr.uri.2.1, hv2⟩ hfound hac rfl hr.uri.2.2 hv3 hnow' huser hdel hx
    cases hrr
    have : d' = d := by cases hd'.symm.trans hd; rfl
    subst this
    rw [hda] at hda'
    cases hda'
    have hws : ws = ac.scopes := (words_iff.mp hwords).symm.trans
      (words_iff.mp (words_join ac.scopes (fun s hs => (exScopes_plain s (hsc.2 s hs)).2)))
    subst hws
    have hk : key = exKey ∧ alg = py! "HS256" := by
      obtain ⟨pre, post, he⟩ := List.append_of_mem hkey
      obtain ⟨a, b, d, m1, m2, -, -, -, -, hop, -, -⟩ := alone_event halone he
      cases hop
      exact ⟨rfl, rfl⟩
    obtain ⟨rfl, rfl⟩ := hk
    rcases alone_info halone hinfo with ⟨-, h⟩ | ⟨x, hx1, h⟩
    · cases h
    · rw [show urow.user.userId = urow.id from rfl, hu] at hx1
      cases hx1
      cases h
      obtain ⟨pre, post, he⟩ := List.append_of_mem hstamp
      obtain ⟨a, b, d, m1, m2, rfl, -, -, -, hop, -, -⟩ := alone_event halone he
      cases hop
      exact ⟨tok, _, List.mem_append_right _ List.mem_cons_self, hid, idTokenSays_of_good hgood⟩
  · intro hreg
    rcases href with ⟨-, t, htm, hdt⟩ | ⟨hno, -⟩
    · obtain ⟨rt, h1, h2⟩ := alone_refreshed halone ht hx hc hu htm
      exact ⟨t, rt, hdt, h1, h2⟩
    · exact absurd hreg hno
  · obtain ⟨code', hc', init, ans, htr⟩ := C42_success env _ (exHooks_benign env) exProvider req hr.type _ _ hx _ _ _ _ ha
    rw [hr.code.1] at hc'
    cases hc'
    obtain ⟨a, b, d, m1, m2, -, -, hb, -, hop, -, h2⟩ := alone_event halone htr
    have hb : b = [] := by
      cases b with
      | nil => rfl
      | cons x y => cases hb
    subst hb
    cases h2
    have : Example.deleteCode m1 (.str code) = m' := congrArg Prod.fst hop
    rw [← this]
    unfold Example.deleteCode
    cases hg : Dict.get (m1.codes.filter fun kv => decide (kv.1 ≠ code)) code with
    | none => rfl
    | some x =>
      have := (List.mem_filter.mp (Dict.mem_of_get hg)).2
      simp at this

/-- The answer to the use of a refresh token: an access token for the client, the user and the scopes that can be read for an
hour, and a refresh token of the client and the user that was stored before and still is. -/
def ServedRefresh (env : OEnv) (m : Store) (l : List (Draw × Ev)) (m' : Store) (row : ClientRow) (urow : UserRow)
    (scopes : List PyStr) (r : Response) : Prop :=
  ∃ d access t rt, r.status = 200 ∧ JsonBody env.cr.fe r d ∧
    Dict.get d (py! "token_type") = some (.str (py! "Bearer")) ∧ Dict.get d (py! "expires_in") = some (.int 3600) ∧
    Dict.get d (py! "access_token") = some (.str access) ∧
    (∃ p ∈ l, ∀ n1 n2, p.1.stamp ≤ n1 → n1 < p.1.stamp + 3600 → p.1.stamp ≤ n2 → n2 < p.1.stamp + 3600 →
      Reads env access n1 n2 p.1.stamp row.id urow.id (joinWith [32] scopes)) ∧
    Dict.get d (py! "refresh_token") = some (.str t) ∧ m'.findRefresh t = some rt ∧ rt.clientId = row.id ∧ rt.userId = urow.id ∧
    rt ∈ m.refresh

theorem row_permits (row : ClientRow) : Permits row.client row.scopes := by
  intro l
  refine ⟨row.scopes.filter (fun s => decide (s ∈ l)), ?_, ?_⟩
  · show liftRes (filterIn (strList l) row.scopes) = _
    rw [filterIn_strList]
    rfl
  · intro s
    rw [List.mem_filter, decide_eq_true_eq]
    exact And.comm

/-- C84, refresh token: a legitimate use of a stored refresh token that has not expired, which nothing disturbs, is served. The new
access token has the scopes that were asked for; if none were, those of the refresh token that the client still has. -/
theorem C84_refresh (env : OEnv) (hl : FloatLaws env.cr.fe) (m m' : Store) (l : List (Draw × Ev)) (row : ClientRow)
    (urow : UserRow) (req : Request) (token : PyStr) (rt : RefreshTok) (ws : List PyStr) (out : ORes Response)
    (hc : m.findClient row.id = some row) (hce : Encodable row.id) (hcs : ∀ s ∈ row.scopes, Encodable s)
    (hu : m.findUser urow.id = some urow) (hue : Encodable urow.id) (ht : PlainTokens m)
    (hrt : m.findRefresh token = some rt) (hac : rt.clientId = row.id) (hau : rt.userId = urow.id)
    (hr : Refreshes req row token rt.scopes ws) (halone : Alone env m l m') (hprompt : Prompt l)
    (hnow : ∀ p ∈ l, p.1.now < rt.expiration) (hx : Exec (exProvider.token env (exHooks env) req) (events l) out) :
    ∃ r scopes, out = .ok r ∧ ServedRefresh env m l m' row urow scopes r ∧
      (ws = [] → ∀ s, s ∈ scopes ↔ s ∈ rt.scopes ∧ s ∈ row.scopes) ∧ (ws ≠ [] → ∀ s, s ∈ scopes ↔ s ∈ ws) := by
  obtain ⟨meth, hi⟩ := hr.client
  have hw : Works (events l) row.id row.client (.user (some urow.user)) (fun l => ∀ s ∈ l, s ∈ row.scopes) :=
    alone_works hl halone hprompt ht hc hu hce hue (fun s hs x hx => hcs x (hs x hx))
  obtain ⟨r, d, scopes, t, rfl, ⟨hst, hd, access, ha, hda, hdt, hde⟩, htm, hdr, h1, h2⟩ := C76_refresh_token env hl (exHooks env)
    exProvider req (events l) out meth row.id row.client token rt urow.user row.scopes ws (by decide) hr.type hi hr.grant hw
    (row_permits row) hr.asks hr.permitted hr.token.1 hr.token.2 (alone_getRefresh halone hx hrt) hac
    (alone_now halone hnow) (by rw [hau]; exact alone_user halone hu) hx
  obtain ⟨rt', g1, g2, g3, g4⟩ := alone_refreshed halone ht hx hc hu htm
  refine ⟨r, scopes, rfl, ⟨d, access, t, rt', hst, hd, hdt, hde, hda, alone_reads hl halone ha, hdr, g1, g2, g3, ?_⟩, h1, h2⟩
  rcases g4 with g4 | ⟨g4, -⟩
  · exact g4
  · exact absurd ⟨hac, hau⟩ (g4 rt (List.mem_of_find?_eq_some hrt))

/-- C84, the whole flow: if the user authorizes a client with a valid request that carries a nonce, the browser is sent to the
client with a code; if the client exchanges the code within a day, it is served; and if it was registered for refresh tokens and
had none for this user, it can use the refresh token it got for two weeks, and gets an access token with the same scopes. Nothing
disturbs the requests, and nothing happens in between. -/
theorem C84_flow (env : OEnv) (hl : FloatLaws env.cr.fe) (hh : HashLengths env.he) (m0 m1 : Store) (l0 : List (Draw × Ev))
    (row : ClientRow) (urow : UserRow) (req0 : Request) (uri challenge method nonce : PyStr) (ws : List PyStr)
    (out0 : ORes Response) (hc : m0.findClient row.id = some row) (hce : Encodable row.id) (hcs : ∀ s ∈ row.scopes, Encodable s)
    (hu : m0.findUser urow.id = some urow) (hue : PlainUser urow) (ht : PlainTokens m0)
    (hnew : ∀ x ∈ m0.refresh, ¬ (x.clientId = row.id ∧ x.userId = urow.id))
    (hv : ValidAuth row urow.user req0 uri challenge method ws) (hws : ws ≠ [])
    (hn : Dict.get req0.data (py! "nonce") = some nonce) (hn1 : nonce ≠ []) (hn2 : nonce.length ≤ 256)
    (huri : 63 ∉ uri ∧ 35 ∉ uri) (h0 : Alone env m0 l0 m1)
    (hx0 : Exec (exProvider.authorize env (exHooks env) req0) (events l0) out0) :
    ∃ r0 loc code, out0 = .ok r0 ∧ r0.status = 303 ∧ location r0 = some loc ∧
      urldecode (urlQuery loc) = visible [(py! "code", some code), (py! "state", Dict.get req0.data (py! "state"))] ∧
      ∀ req1 l1 m2 out1, Exchanges env req1 row code uri challenge method → Alone env m1 l1 m2 → Prompt l1 →
        (∀ p ∈ l0, ∀ q ∈ l1, q.1.now < p.1.now + 86400 * 1000000) →
        Exec (exProvider.token env (exHooks env) req1) (events l1) out1 →
        ∃ r1, out1 = .ok r1 ∧ ServedExchange env m1 l1 m2 row urow code ws r1 ∧
          (py! "refresh_token" ∈ row.grantTypes → ∃ d t, JsonBody env.cr.fe r1 d ∧
            Dict.get d (py! "refresh_token") = some (.str t) ∧
            ∀ req2 l2 m3 out2, Refreshes req2 row t ws [] → Alone env m2 l2 m3 → Prompt l2 →
              (∀ p ∈ l1, ∀ q ∈ l2, q.1.now < p.1.now + 14 * 86400 * 1000000) →
              Exec (exProvider.token env (exHooks env) req2) (events l2) out2 →
              ∃ r2 scopes, out2 = .ok r2 ∧ ServedRefresh env m2 l2 m3 row urow scopes r2 ∧ ∀ s, s ∈ scopes ↔ s ∈ ws) := by
  have hund : ∀ ev ∈ events l0, Undisturbed env row urow.user ev := by
    intro ev hev
    obtain ⟨pre, post, he⟩ := List.append_of_mem hev
    obtain ⟨a, b, d, n1, n2, -, -, -, h1, hop, hnd, -⟩ := alone_event h0 he
    refine ⟨d, n1, n2, hop, ?_, ?_, hnd.code⟩
    · rw [(alone_find h1).1, hc]
    · rw [(alone_find h1).2]
      show (m0.findUser urow.id).isSome = true
      rw [hu]
      rfl
  obtain ⟨r0, code, data, loc, rfl, hsave, hstored, hst, hloc, hq⟩ := C63_partial env row urow.user req0 uri challenge method nonce
    ws hv hn hn1 hn2 _ _ hx0 hund
  refine ⟨r0, loc, code, rfl, hst, hloc, hq huri.1 huri.2, ?_⟩
  intro req1 l1 m2 out1 hr1 h1 hp1 hday hx1
  obtain ⟨ops, hw, hpre⟩ := C82_authorize env _ (exHooks_benign env) exProvider req0 _ (exec_partial hx0)
  obtain ⟨pre, post, he⟩ := List.append_of_mem hsave
  rw [storeOps_split he rfl] at hpre
  have hq : storeOps pre = [] ∧ storeOps post = [] := by
    obtain ⟨c, hcc⟩ := hpre
    cases hw with
    | nothing => simp at hcc
    | code _ _ _ _ _ =>
      generalize storeOps pre = a at hcc
      generalize storeOps post = b at hcc
      rcases a with _ | ⟨x, _ | ⟨y, a⟩⟩ <;> simp at hcc
      exact ⟨rfl, hcc.2.1⟩
  obtain ⟨a, b, d, n1, n2, rfl, ha, hb, g1, hop, hnd, g2⟩ := alone_event h0 he
  have hsv := hstored d n1 n2 hop
  have hcodes : m1.codes = n2.codes := alone_codes g2 (fun ev hev => (quiet_of_storeOps hq.2 ev (hb ▸ hev)).1)
  have hrefresh : m1.refresh = m0.refresh := by
    rw [alone_refresh g2 (fun ev hev => (quiet_of_storeOps hq.2 ev (hb ▸ hev)).2)]
    have : (exOp env d n1 (.saveCode code data row.client urow.user)).1.refresh = n1.refresh := exOp_refresh env d n1 _ rfl
    rw [hop] at this
    rw [this]
    exact alone_refresh g1 (fun ev hev => (quiet_of_storeOps hq.1 ev (ha ▸ hev)).2)
  have hc1 : m1.findClient row.id = some row := by rw [(alone_find h0).1, hc]
  have hu1 : m1.findUser urow.id = some urow := by rw [(alone_find h0).2, hu]
  have ht1 := alone_plain h0 ht
  obtain ⟨r1, rfl, hserved⟩ := C84_exchange env hl hh m1 m2 l1 row urow req1 code _ out1 hc1 hce hu1 hue ht1 (hcodes ▸ hsv) rfl rfl
    ⟨hws, fun s hs => (hv.scopes s hs).1⟩ hr1 h1 hp1
    (hday _ (List.mem_append_right _ List.mem_cons_self)) hx1
  refine ⟨r1, rfl, hserved, ?_⟩
  intro hreg
  obtain ⟨dict, access, -, hd, -, -, -, -, -, href, -⟩ := hserved
  obtain ⟨t, rt, hdt, hfind, e1, e2, e3⟩ := href hreg
  refine ⟨dict, t, hd, hdt, ?_⟩
  intro req2 l2 m3 out2 hr2 h2 hp2 hweeks hx2
  rcases e3 with e3 | ⟨-, e4, q, hq1, hq2⟩
  · rw [hrefresh] at e3
    exact absurd ⟨e1, e2⟩ (hnew rt e3)
  obtain ⟨r2, scopes, ho, hs2, hall, -⟩ := C84_refresh env hl m2 m3 l2 row urow req2 t rt [] out2 (by rw [(alone_find h1).1, hc1])
    hce hcs (by rw [(alone_find h1).2, hu1]) hue.1 (alone_plain h1 ht1) hfind e1 e2 (by rw [e4]; exact hr2) h2 hp2
    (by rw [hq2]; exact hweeks q hq1) hx2
  refine ⟨r2, scopes, ho, hs2, ?_⟩
  intro s
  rw [hall rfl s, e4]
  exact ⟨fun h => h.1, fun h => ⟨h, (hv.scopes s h).2⟩⟩

/-! ### The hypotheses are satisfiable -/

/-- A request alone: its next operations with these draws, the database afterwards, and what is left of it. -/
def solo {α : Type} (env : OEnv) : List Draw → Store → P α → List (Draw × Ev) × Store × P α
  | d :: ds, m, .op o k =>
    ((d, ⟨o, (exOp env d m o).2⟩) :: (solo env ds (exOp env d m o).1 (k (exOp env d m o).2)).1,
      (solo env ds (exOp env d m o).1 (k (exOp env d m o).2)).2)
  | _, m, p => ([], m, p)

/-- A check of `NewDraw`. -/
def newDraw (m : Store) (d : Draw) : Op → Bool
  | .saveCode code _ _ _ => (Dict.get m.codes code).isNone
  | .createRefresh _ _ _ => match secretToken d.choices32.val with
    | .ok t => (m.findRefresh t).isNone
    | _ => true
  | _ => true

/-- Are all draws new? -/
def newDraws {α : Type} (env : OEnv) : List Draw → Store → P α → Bool
  | d :: ds, m, .op o k => newDraw m d o && newDraws env ds (exOp env d m o).1 (k (exOp env d m o).2)
  | _, _, _ => true

theorem newDraw_iff {m : Store} {d : Draw} {o : Op} (h : newDraw m d o = true) : NewDraw m d o := by
  constructor
  · rintro code data c u rfl
    exact Option.isNone_iff_eq_none.mp h
  · rintro c u s t rfl ht
    simp only [newDraw, ht] at h
    exact Option.isNone_iff_eq_none.mp h

theorem solo_alone {α : Type} {env : OEnv} {ds : List Draw} {m : Store} {p : P α} (h : newDraws env ds m p = true) :
    Alone env m (solo env ds m p).1 (solo env ds m p).2.1 := by
  induction ds generalizing m p with
  | nil => cases p <;> exact .nil m
  | cons d ds ih =>
    cases p with
    | done r => exact .nil m
    | op o k =>
      simp only [newDraws, Bool.and_eq_true] at h
      exact .step _ _ _ _ _ _ rfl (newDraw_iff h.1) (ih h.2)

theorem solo_exec {α : Type} {env : OEnv} {ds : List Draw} {m : Store} {p : P α} {r : ORes α}
    (h : outcome (solo env ds m p).2.2 = some r) : Exec p (events (solo env ds m p).1) r := by
  induction ds generalizing m p with
  | nil =>
    cases p with
    | done x => cases h; exact .done _
    | op o k => cases h
  | cons d ds ih =>
    cases p with
    | done x => cases h; exact .done _
    | op o k => exact .op o k _ _ _ (ih h)

theorem solo_draws {α : Type} {env : OEnv} {ds : List Draw} {m : Store} {p : P α} :
    ∀ q ∈ (solo env ds m p).1, q.1 ∈ ds := by
  induction ds generalizing m p with
  | nil =>
    intro q hq
    cases p <;> cases hq
  | cons d ds ih =>
    intro q hq
    cases p with
    | done x => cases hq
    | op o k =>
      rcases List.mem_cons.mp hq with rfl | hq
      · exact List.mem_cons_self
      · exact List.mem_cons_of_mem _ (ih q hq)

/-- The three requests of the flow. -/
def flow0 : List (Draw × Ev) × Store × P Response :=
  solo toyEnv (List.replicate 3 (exDraw 0)) exStore
    (exProvider.authorize toyEnv (exHooks toyEnv) (exAuthorize [(py! "nonce", py! "n")]))

def flow1 : List (Draw × Ev) × Store × P Response :=
  solo toyEnv (List.replicate 13 (exDraw 1)) flow0.2.1 (exProvider.token toyEnv (exHooks toyEnv) (exExchange exCode))

/-- The use of the refresh token that is drawn by `exDraw 1`. -/
def exRefresh : Request := toyPost (by! "grant_type=refresh_token&refresh_token=" ++ List.replicate 32 98)

def flow2 : List (Draw × Ev) × Store × P Response :=
  solo toyEnv (List.replicate 6 (exDraw 2)) flow1.2.1 (exProvider.token toyEnv (exHooks toyEnv) exRefresh)

theorem prompt_of_stamps {l : List (Draw × Ev)} (h : ∀ q ∈ l, q.1.stamp = 1 ∧ q.1.stamp2 = 1) : Prompt l := by
  have hall : ∀ t ∈ l.flatMap (fun p => [p.1.stamp, p.1.stamp2]), t = 1 := by
    intro t ht
    obtain ⟨q, hq, ht⟩ := List.mem_flatMap.mp ht
    obtain ⟨h1, h2⟩ := h q hq
    simp only [List.mem_cons, List.not_mem_nil, or_false] at ht
    rcases ht with rfl | rfl
    · exact h1
    · exact h2
  unfold Prompt
  refine List.Pairwise.imp_of_mem (R := fun _ _ => True) ?_ (List.pairwise_of_forall (fun _ _ => trivial))
  intro a b ha hb _
  rw [hall a ha, hall b hb]
  decide

/-- Texts without special characters, and what is not composed of texts. -/
def plainVal : Val → Bool
  | .str s => s.all fun c => decide (c < 128)
  | .list _ | .dict _ => false
  | _ => true

theorem exUser_plain : PlainUser exUser := by
  refine ⟨encodable_ascii (s := py! "u1") (by decide), ?_⟩
  have key : ∀ sc ∈ scopeClaims exUser, ∀ kv ∈ sc.2, plainVal kv.2 = true := by
    intro sc hsc kv hkv
    exact List.all_eq_true.mp (List.all_eq_true.mp (by decide +kernel :
      (scopeClaims exUser).all (fun sc => sc.2.all fun kv => plainVal kv.2) = true) sc hsc) kv hkv
  intro scope claims k v hsc hkv
  have := key _ hsc _ hkv
  cases v with
  | str s => exact encodable_ascii (fun c hc => of_decide_eq_true (List.all_eq_true.mp this c hc))
  | list l => cases this
  | dict d => cases this
  | _ => trivial

theorem exClient_identifies (body : Bytes) : Identifies (toyPost body) .basic (py! "c1") exClient.client :=
  ⟨(toyPost_identifies body).presents, rfl, Or.inl rfl⟩

/-- The outcome of a finished request. -/
theorem outcome_of_status {p : P Response} {status : Nat} (h : finished status p = true) :
    ∃ r, outcome p = some (.ok r) ∧ r.status = status := by
  unfold finished at h
  split at h
  · rename_i r hr
    exact ⟨r, hr, of_decide_eq_true h⟩
  · cases h

/-- The flow of the example: all three requests are finished, and C84 applies to them. -/
example : ∃ r1 r2 scopes, outcome flow1.2.2 = some (.ok r1) ∧ outcome flow2.2.2 = some (.ok r2) ∧
    ServedExchange toyEnv flow0.2.1 flow1.1 flow1.2.1 exClient exUser (List.replicate 64 97) [py! "openid"] r1 ∧
    ServedRefresh toyEnv flow1.2.1 flow2.1 flow2.2.1 exClient exUser scopes r2 ∧ ∀ s, s ∈ scopes ↔ s ∈ [py! "openid"] := by
  obtain ⟨r0, o0, -⟩ := outcome_of_status (by decide +kernel : finished 303 flow0.2.2 = true)
  obtain ⟨r1, o1, -⟩ := outcome_of_status (by decide +kernel : finished 200 flow1.2.2 = true)
  obtain ⟨r2, o2, -⟩ := outcome_of_status (by decide +kernel : finished 200 flow2.2.2 = true)
  have draws : ∀ {n k m p}, ∀ q ∈ (solo toyEnv (List.replicate k (exDraw n)) m p : _ × _ × P Response).1, q.1 = exDraw n :=
    fun q hq => List.eq_of_mem_replicate (solo_draws q hq)
  have stamps : ∀ {n k m p}, Prompt (solo toyEnv (List.replicate k (exDraw n)) m p : _ × _ × P Response).1 :=
    prompt_of_stamps (fun q hq => by rw [draws q hq]; exact ⟨rfl, rfl⟩)
  obtain ⟨r0', loc, code, h0, -, hloc, hq, H⟩ := C84_flow toyEnv toyFloat_laws toyHash_lengths exStore flow0.2.1 flow0.1 exClient exUser
    (exAuthorize [(py! "nonce", py! "n")]) _ _ _ (py! "n") _ _ rfl (encodable_ascii (by decide))
    (by intro s hs; exact encodable_ascii ((by decide : ∀ s ∈ exClient.scopes, ∀ c ∈ s, c < 128) s hs)) rfl exUser_plain
    ⟨List.nodup_nil, by intro r hr; cases hr⟩ (by intro x hx; cases hx)
    (valid_exAuthorize _ (by decide +kernel) (by decide +kernel)) (by decide) (by decide +kernel) (by decide) (by decide)
    (by decide) (solo_alone (by decide +kernel)) (solo_exec o0)
  cases h0
  have hcode : code = List.replicate 64 97 := by
    have hr : (match outcome flow0.2.2 with
        | some (.ok r) => decide (Option.map (fun l => Dict.get (urldecode (urlQuery l)) (py! "code")) (location r) =
          some (some (List.replicate 64 97)))
        | _ => false) = true := by decide +kernel
    rw [o0] at hr
    have hr := of_decide_eq_true hr
    rw [hloc, Option.map_some, hq] at hr
    have hr := Option.some.inj hr
    cases code with
    | nil => exact absurd hr (by decide +kernel)
    | cons c code =>
      simp [visible, Dict.get] at hr
      simpa using hr
  subst hcode
  obtain ⟨r1', h1, hs1, hr1⟩ := H (exExchange exCode) flow1.1 flow1.2.1 _
    ⟨by decide +kernel, by decide, ⟨.basic, exClient_identifies _⟩, ⟨by decide +kernel, by decide⟩,
      ⟨by decide +kernel, by decide, by decide⟩, toyVerifier, by decide +kernel, by decide, Or.inl ⟨rfl, rfl⟩⟩
    (solo_alone (by decide +kernel)) stamps
    (by intro p hp q hq; rw [draws p hp, draws q hq]; decide) (solo_exec o1)
  cases h1
  obtain ⟨d, t, hd, hdt, H2⟩ := hr1 (by decide)
  have ht : t = List.replicate 32 98 := by
    have hm : memberOf (py! "refresh_token") (outcome flow1.2.2) = some (List.replicate 32 98) := by decide +kernel
    obtain ⟨r, d', k1, -, k3, k4⟩ := memberOf_some hm
    rw [o1] at k1
    cases k1
    cases hd.symm.trans k3
    rw [hdt] at k4
    cases k4
    rfl
  subst ht
  obtain ⟨r2', scopes, h2, hs2, hsc⟩ := H2 exRefresh flow2.1 flow2.2.1 _
    ⟨by decide +kernel, by decide, ⟨.basic, exClient_identifies _⟩, ⟨by decide +kernel, by decide⟩,
      Or.inl ⟨by decide +kernel, rfl⟩, by intro s hs; cases hs⟩
    (solo_alone (by decide +kernel)) stamps
    (by intro p hp q hq; rw [draws p hp, draws q hq]; decide) (solo_exec o2)
  cases h2
  exact ⟨r1, r2, scopes, o1, o2, hs1, hs2, hsc⟩

end Psion.Props
