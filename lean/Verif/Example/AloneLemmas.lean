import Verif.Example.AdapterLemmas
import Verif.Spec.Alone
import Verif.Spec.Work
import Verif.Props.ExampleTokens
import Verif.OAuth.IdTokenServe

/-!
# Requests to the example application that nothing disturbs: lemmas
-/

namespace Psion.Example

open Psion Spec

/-- Operations that may change stored codes. -/
def writesCodes : Op → Bool
  | .saveCode .. | .deleteCode _ => true
  | _ => false

/-- Operations that may change stored refresh tokens. -/
def writesRefresh : Op → Bool
  | .createRefresh .. | .revoke .. => true
  | _ => false

section
variable {env : OEnv} {d : Draw} {m m' : Store} {o : Op} {r : ORes o.Ans}

theorem saveCode_frame (s : Store) (d : Draw) (code : PyStr) (data : Dict PyStr Val) (c : Client) (u : User) :
    (saveCode s d code data c u).1.users = s.users ∧ (saveCode s d code data c u).1.clients = s.clients ∧
      (saveCode s d code data c u).1.refresh = s.refresh := by
  unfold saveCode
  split
  · split
    · exact ⟨rfl, rfl, rfl⟩
    · split <;> exact ⟨rfl, rfl, rfl⟩
  · exact ⟨rfl, rfl, rfl⟩
  · exact ⟨rfl, rfl, rfl⟩

theorem createRefresh_frame (s : Store) (d : Draw) (c : Client) (u : Option User) (scopes : List PyStr) :
    (createRefresh s d c u scopes).1.users = s.users ∧ (createRefresh s d c u scopes).1.clients = s.clients ∧
      (createRefresh s d c u scopes).1.codes = s.codes := by
  unfold createRefresh
  split
  · exact ⟨rfl, rfl, rfl⟩
  · split
    · exact ⟨rfl, rfl, rfl⟩
    · split
      · exact ⟨rfl, rfl, rfl⟩
      · split <;> exact ⟨rfl, rfl, rfl⟩

theorem deleteCode_frame (s : Store) (v : Val) : (deleteCode s v).users = s.users ∧ (deleteCode s v).clients = s.clients ∧
    (deleteCode s v).refresh = s.refresh := by
  unfold deleteCode
  split <;> exact ⟨rfl, rfl, rfl⟩

/-- No operation changes users or clients. -/
theorem exOp_tables (env : OEnv) (d : Draw) (m : Store) (o : Op) :
    (exOp env d m o).1.users = m.users ∧ (exOp env d m o).1.clients = m.clients := by
  cases o with
  | saveCode code data c u => exact ⟨(saveCode_frame m d code data c u).1, (saveCode_frame m d code data c u).2.1⟩
  | createRefresh c u s => exact ⟨(createRefresh_frame m d c u s).1, (createRefresh_frame m d c u s).2.1⟩
  | deleteCode v => exact ⟨(deleteCode_frame m v).1, (deleteCode_frame m v).2.1⟩
  | getUserinfo u s =>
    simp only [exOp]
    split <;> exact ⟨rfl, rfl⟩
  | _ => exact ⟨rfl, rfl⟩

theorem exOp_codes (env : OEnv) (d : Draw) (m : Store) (o : Op) (h : writesCodes o = false) :
    (exOp env d m o).1.codes = m.codes := by
  cases o with
  | saveCode code data c u => cases h
  | deleteCode v => cases h
  | createRefresh c u s => exact (createRefresh_frame m d c u s).2.2
  | getUserinfo u s =>
    simp only [exOp]
    split <;> rfl
  | _ => rfl

theorem exOp_refresh (env : OEnv) (d : Draw) (m : Store) (o : Op) (h : writesRefresh o = false) :
    (exOp env d m o).1.refresh = m.refresh := by
  cases o with
  | saveCode code data c u => exact (saveCode_frame m d code data c u).2.2
  | deleteCode v => exact (deleteCode_frame m v).2.2
  | createRefresh c u s => cases h
  | revoke c t hint => cases h
  | getUserinfo u s =>
    simp only [exOp]
    split <;> rfl
  | _ => rfl

end

section
variable {env : OEnv} {m m' : Store} {l : List (Draw × Ev)}

theorem alone_tables (h : Alone env m l m') : m'.users = m.users ∧ m'.clients = m.clients := by
  induction h with
  | nil => exact ⟨rfl, rfl⟩
  | step m m' m'' d ev l hop _ _ ih =>
    have := exOp_tables env d m ev.op
    rw [hop] at this
    exact ⟨ih.1.trans this.1, ih.2.trans this.2⟩

theorem alone_find (h : Alone env m l m') : (∀ id, m'.findClient id = m.findClient id) ∧ ∀ id, m'.findUser id = m.findUser id := by
  obtain ⟨h1, h2⟩ := alone_tables h
  unfold Store.findClient Store.findUser
  rw [h1, h2]
  exact ⟨fun _ => rfl, fun _ => rfl⟩

theorem alone_codes (h : Alone env m l m') (hw : ∀ ev ∈ events l, writesCodes ev.op = false) : m'.codes = m.codes := by
  induction h with
  | nil => rfl
  | step m m' m'' d ev l hop _ _ ih =>
    have := exOp_codes env d m ev.op (hw ev List.mem_cons_self)
    rw [hop] at this
    exact (ih (fun e he => hw e (List.mem_cons_of_mem _ he))).trans this

theorem alone_refresh (h : Alone env m l m') (hw : ∀ ev ∈ events l, writesRefresh ev.op = false) : m'.refresh = m.refresh := by
  induction h with
  | nil => rfl
  | step m m' m'' d ev l hop _ _ ih =>
    have := exOp_refresh env d m ev.op (hw ev List.mem_cons_self)
    rw [hop] at this
    exact (ih (fun e he => hw e (List.mem_cons_of_mem _ he))).trans this

theorem alone_append {a b : List (Draw × Ev)} (h : Alone env m (a ++ b) m') : ∃ n, Alone env m a n ∧ Alone env n b m' := by
  induction a generalizing m with
  | nil => exact ⟨m, .nil m, h⟩
  | cons p a ih =>
    cases h with
    | step _ m1 _ d ev _ hop hf h =>
      obtain ⟨n, h1, h2⟩ := ih h
      exact ⟨n, .step _ _ _ _ _ _ hop hf h1, h2⟩

/-- An operation in the middle. -/
theorem alone_split {a b : List (Draw × Ev)} {d : Draw} {ev : Ev} (h : Alone env m (a ++ (d, ev) :: b) m') :
    ∃ m1 m2, Alone env m a m1 ∧ exOp env d m1 ev.op = (m2, ev.ans) ∧ NewDraw m1 d ev.op ∧ Alone env m2 b m' := by
  obtain ⟨n, h1, h2⟩ := alone_append h
  cases h2 with
  | step _ m1 _ _ _ _ hop hf h2 => exact ⟨n, m1, h1, hop, hf, h2⟩

theorem events_split {pre post : List Ev} {ev : Ev} (h : events l = pre ++ ev :: post) :
    ∃ a b d, l = a ++ (d, ev) :: b ∧ events a = pre ∧ events b = post := by
  unfold events at h
  obtain ⟨a, b, rfl, rfl, hb⟩ := List.map_eq_append_iff.mp h
  obtain ⟨⟨d, ev'⟩, b, rfl, rfl, rfl⟩ := List.map_eq_cons_iff.mp hb
  exact ⟨a, b, d, rfl, rfl, rfl⟩

theorem alone_event (h : Alone env m l m') {pre post : List Ev} {ev : Ev} (he : events l = pre ++ ev :: post) :
    ∃ a b d m1 m2, l = a ++ (d, ev) :: b ∧ events a = pre ∧ events b = post ∧ Alone env m a m1 ∧
      exOp env d m1 ev.op = (m2, ev.ans) ∧ NewDraw m1 d ev.op ∧ Alone env m2 b m' := by
  obtain ⟨a, b, d, rfl, ha, hb⟩ := events_split he
  obtain ⟨m1, m2, h1, h2, h3, h4⟩ := alone_split h
  exact ⟨a, b, d, m1, m2, rfl, ha, hb, h1, h2, h3, h4⟩

end

/-! ## The tokens of the adapter -/

theorem plain_secret {k : Nat} (l : { l : List (Fin 64) // l.length = k + 1 }) {t : PyStr} (h : secretToken l.val = .ok t) :
    Encodable t := by
  obtain ⟨t', ht, -, hc, -⟩ := Props.C10_secret_token l.val (by
    intro h0
    have := l.property
    rw [h0] at this
    cases this)
  rw [h] at ht
  cases ht
  exact encodable_ascii (fun c hx => by have := hc c hx; omega)

theorem find_token {l : List RefreshTok} (hd : (l.map RefreshTok.token).Nodup) {r : RefreshTok} (h : r ∈ l) :
    l.find? (fun x => decide (x.token = r.token)) = some r := by
  induction l with
  | nil => cases h
  | cons x l ih =>
    rw [List.map_cons, List.nodup_cons] at hd
    rcases List.mem_cons.mp h with rfl | h
    · simp
    · have : x.token ≠ r.token := by
        intro he
        exact hd.1 (he ▸ List.mem_map_of_mem h)
      rw [List.find?_cons_of_neg (by simpa using this)]
      exact ih hd.2 h

theorem exKey_signs (cr : Crypto) : SigningKey cr exKey (py! "HS256") := by
  refine ⟨⟨.dict exKey.data, ?_⟩, ⟨py! "secret_key_id", rfl, by decide, encodable_ascii (by decide), Or.inl rfl, Or.inr rfl,
    Or.inl rfl, Or.inl rfl⟩, fun _ msg => ⟨_, .hs256 _ msg⟩⟩
  have ht : toStringB (b64urlEncode Props.exSecret) =
      py! "c3VwZXJfc2VjcmV0X2tleV90aGF0X25vX29uZV93aWxsX2JlX2FibGVfdG9fZ3Vlc3M" := by
    rw [toStringB_b64url]; decide +kernel
  exact jwkInit_ok.mpr ⟨_, rfl, rfl, rfl, octInit_canon (s := Props.exSecret) rfl (by rw [ht]; rfl)⟩

/-- `create_access_token` succeeds when nothing contains lone surrogates and the clock runs. -/
theorem createAccess_for {env : OEnv} (hl : FloatLaws env.cr.fe) {d : Draw} {c : Client} {o : Owner} {sub : PyStr}
    {scopes : List PyStr} (ho : ownerId o = .ok sub) (hc : Encodable c.clientId) (hu : Encodable sub)
    (hs : ∀ s ∈ scopes, Encodable s) (h1 : d.stamp ≤ d.stamp2) (h2 : d.stamp2 < d.stamp + 3600) :
    ∃ t, createAccess env d c o scopes = .ok t ∧ Encodable t := by
  obtain ⟨jti, hj, -⟩ := Props.C10_secret_token d.choices32.val (by
    intro h0
    have := d.choices32.property
    rw [h0] at this
    cases this)
  have hje : Encodable jti := plain_secret d.choices32 hj
  have henc : Val.EncD (accessClaims d.stamp sub jti c scopes) := by
    refine ⟨encodable_ascii (by decide), encodable_ascii (by decide), encodable_ascii (by decide), trivial,
      encodable_ascii (by decide), hu, encodable_ascii (by decide), trivial, encodable_ascii (by decide), hje,
      encodable_ascii (by decide), hc, encodable_ascii (by decide), ?_, trivial⟩
    exact encodable_join hs
  obtain ⟨hok, -⟩ := Props.accessClaims_wf d.stamp sub jti c scopes
  obtain ⟨hb, hhb⟩ := dumps_encodable hl (d := [(py! "alg", .str (py! "HS256")), (py! "typ", .str (py! "at+jwt"))])
    ⟨encodable_ascii (by decide), encodable_ascii (by decide), encodable_ascii (by decide), encodable_ascii (by decide), trivial⟩
  obtain ⟨pb, hpb⟩ := dumps_encodable hl henc
  obtain ⟨v, hv⟩ := (exKey_signs env.cr).made
  have ht : ClaimTypes (accessClaims d.stamp sub jti c scopes) := by
    refine ⟨?_, Or.inl rfl, ?_⟩
    · intro k hk
      simp only [List.mem_cons, List.not_mem_nil, or_false] at hk
      rcases hk with rfl | rfl | rfl <;> exact Or.inr ⟨_, rfl⟩
    · intro k hk
      simp only [List.mem_cons, List.not_mem_nil, or_false] at hk
      rcases hk with rfl | rfl | rfl
      · exact Or.inr ⟨_, rfl⟩
      · exact Or.inr ⟨_, rfl⟩
      · exact Or.inl rfl
  have hw : InWindow d.stamp2 (accessClaims d.stamp sub jti c scopes) := by
    constructor
    · intro i hi _; cases hi; exact h2
    · intro i hi _; cases hi; exact h1
    · intro i hi; cases hi
  have hhd : HeaderOk [(py! "alg", .str (py! "HS256")), (py! "typ", .str (py! "at+jwt"))] := by
    refine ⟨⟨_, by decide, rfl⟩, ?_, ?_⟩
    · intro k hk v hv
      simp only [List.mem_cons, List.not_mem_nil, or_false] at hk
      rcases hk with rfl | rfl | rfl
      · cases hv
      · cases hv; exact ⟨_, _, rfl⟩
      · cases hv
    · intro v hv
      cases hv
  obtain ⟨t, tok, h3, h4⟩ := (Props.C80_issue env.cr d.stamp2 (accessClaims d.stamp sub jti c scopes)
    [(py! "alg", .str (py! "HS256")), (py! "typ", .str (py! "at+jwt"))] (py! "HS256") rfl v exKey hv d.seed).mpr
    ⟨by simp [accessClaims], ht, hw, hhd, ⟨Or.inl rfl, Or.inl rfl, Or.inl rfl, Or.inl rfl⟩, hb, pb, hhb, hpb,
      Or.inr ⟨_, .hs256 _ _⟩⟩
  obtain ⟨b, -, hb⟩ := Props.encode_bytes h4
  refine ⟨tok, ?_, utf8Encode_encodable hb⟩
  unfold createAccess
  simp only [ho, hj]
  rw [Props.accessClaims_full]
  unfold accessHeader
  rw [h3]
  exact h4

theorem createAccess_served {env : OEnv} (hl : FloatLaws env.cr.fe) {d : Draw} {c : Client} {u : User} {scopes : List PyStr}
    (hc : Encodable c.clientId) (hu : Encodable u.userId) (hs : ∀ s ∈ scopes, Encodable s) (h1 : d.stamp ≤ d.stamp2)
    (h2 : d.stamp2 < d.stamp + 3600) : ∃ t, createAccess env d c (.user (some u)) scopes = .ok t ∧ Encodable t :=
  createAccess_for hl rfl hc hu hs h1 h2

/-- `create_refresh_token` succeeds, and the token is stored afterwards. -/
theorem createRefresh_served {m : Store} {d : Draw} {c : Client} {u : User} {scopes : List PyStr}
    (hp : PlainTokens m) (hc : (m.findClient c.clientId).isSome) (hu : (m.findUser u.userId).isSome)
    (hn : ∀ t, secretToken d.choices32.val = .ok t → m.findRefresh t = none) :
    ∃ t rt, (createRefresh m d c (some u) scopes).2 = .ok t ∧ Encodable t ∧
      (createRefresh m d c (some u) scopes).1.findRefresh t = some rt ∧ rt.clientId = c.clientId ∧ rt.userId = u.userId ∧
      (rt ∈ m.refresh ∨ (∀ r ∈ m.refresh, ¬ (r.clientId = c.clientId ∧ r.userId = u.userId)) ∧
        rt = ⟨t, c.clientId, u.userId, scopes, d.now + 14 * 86400 * 1000000⟩) := by
  unfold createRefresh
  dsimp only
  split
  · rename_i r hr
    have hm := List.mem_of_find?_eq_some hr
    have hcu := List.find?_some hr
    simp only [decide_eq_true_eq] at hcu
    refine ⟨r.token, r, rfl, hp.plain r hm, ?_, hcu.1, hcu.2, Or.inl hm⟩
    exact find_token hp.distinct hm
  · rename_i hno
    obtain ⟨t, ht, -⟩ := Props.C10_secret_token d.choices32.val (by
      intro h0
      have := d.choices32.property
      rw [h0] at this
      cases this)
    rw [ht]
    dsimp only
    rw [if_pos ⟨by rw [hn t ht]; rfl, hc, hu⟩]
    refine ⟨t, _, rfl, plain_secret d.choices32 ht, by simp [Store.findRefresh], rfl, rfl, Or.inr ⟨?_, rfl⟩⟩
    intro r hr
    rw [List.find?_eq_none] at hno
    simpa using hno r hr

end Psion.Example
