import Verif.OAuth.AuthorizeLemmas
import Verif.OAuth.AnswerLemmas
import Verif.Props.Jwk

/-!
# Responses of the authorization endpoint: lemmas
-/

namespace Psion

open Spec

/-! ## Parameters of a redirect -/

/-- The parameters that `urlencode` receives for a dictionary of values. -/
def strParams (env : OEnv) (d : Dict PyStr Val) : NDict PyStr PyStr := (fullDict d).map (fun kv => (kv.1, some (env.str kv.2)))

theorem get_map_val {α β : Type} (f : α → β) (d : Dict PyStr α) (k : PyStr) :
    Dict.get (d.map (fun kv => (kv.1, f kv.2))) k = (Dict.get d k).map f := by
  induction d with
  | nil => rfl
  | cons p d ih =>
    obtain ⟨k', v⟩ := p
    rw [List.map_cons, Dict.get_cons, Dict.get_cons, ih]
    split <;> rfl

theorem get_strParams (env : OEnv) (d : Dict PyStr Val) (k : PyStr) :
    Dict.get (strParams env d) k = (Dict.get (fullDict d) k).map (fun v => some (env.str v)) :=
  get_map_val (fun v => some (env.str v)) (fullDict d) k

theorem ok_strParams (env : OEnv) {d : Dict PyStr Val} (h : Dict.Ok d) : Dict.Ok (strParams env d) := by
  have := Dict.ok_filter h (fun kv => !kv.2.isNone)
  unfold Dict.Ok Dict.keys at this ⊢
  unfold strParams
  rw [List.map_map]
  exact this

theorem get_fullDict_isNone {d : Dict PyStr Val} (hd : Dict.Ok d) {k : PyStr} (h : Dict.get d k = some .none) :
    Dict.get (fullDict d) k = none := by
  rw [Dict.get_eq_none_iff]
  intro hk
  obtain ⟨⟨k', v⟩, hkv, rfl⟩ := List.mem_map.mp hk
  obtain ⟨hm, hv⟩ := List.mem_filter.mp hkv
  have := Dict.get_of_mem hd hm
  rw [h] at this
  cases this
  cases hv

theorem get_strParams_optVal (env : OEnv) {d : Dict PyStr Val} (hd : Dict.Ok d) {k : PyStr} {o : Option PyStr}
    (h : Dict.get d k = some (optVal o)) : (Dict.get (strParams env d) k).join = o := by
  rw [get_strParams]
  cases o with
  | none =>
    rw [get_fullDict_isNone hd h]
    rfl
  | some s =>
    rw [get_fullDict_some h (by simp [optVal])]
    rfl

theorem urlencodeVals_ok {env : OEnv} {url u : PyStr} {d : Dict PyStr Val} (h : urlencodeVals env url d = .ok u) :
    urlencode url (strParams env d) = .ok u := by
  unfold urlencodeVals at h
  split at h
  · cases h
  · unfold strParams
    revert h
    cases urlencode url ((fullDict d).map fun kv => (kv.1, some (env.str kv.2))) with
    | ok a => intro h; cases h; rfl
    | error e => intro h; cases h

/-! ## What is sent -/

theorem authorizeDone_response {env : OEnv} {table : Hooks} (hb : Benign table) {p : Provider} {req : Request}
    {tr : List Ev} {uri code : PyStr} {response : Dict PyStr Val} (h : AuthorizeDone env table p req tr uri code response) :
    Dict.Ok response ∧ Dict.get response (py! "code") = some (.str code) ∧
      Dict.get response (py! "state") = some (optVal (Dict.get req.data (py! "state"))) := by
  obtain ⟨-, c, u, valid, -, -, -, tr', hx, -⟩ := h
  have h1 : ∀ I : Dict PyStr Val → Prop,
      (∀ acc d, (∀ k ∈ authResponseKeys, Dict.get d k = none) → I acc → I (Dict.update acc d)) →
      I [(py! "code", .str code), (py! "state", optVal (Dict.get req.data (py! "state")))] → I response := by
    intro I hstep h0
    refine runHooks_inv (reserved := authResponseKeys) (h := tr')
      (acc0 := [(py! "code", .str code), (py! "state", optVal (Dict.get req.data (py! "state")))])
      (benign_authResponse hb code valid c u) ?_ (fun _ _ => rfl) h0 List.infix_rfl hx
    intro f hf acc tr2 d _ _ hx2 hi
    exact hstep acc d ((benign_authResponse hb code valid c u f hf acc).keys tr2 d hx2) hi
  refine ⟨h1 Dict.Ok (fun acc d _ hi => Dict.ok_update hi d) (by simp [Dict.Ok, Dict.keys]), ?_, ?_⟩
  · refine h1 (fun d => Dict.get d (py! "code") = some (.str code)) ?_ rfl
    intro acc d hd hi
    have := get_updateHook (reserved := authResponseKeys) (acc := acc) (r := some d) (by rintro _ ⟨⟩; exact hd)
    rw [← hi]
    exact this _ (by decide)
  · refine h1 (fun d => Dict.get d (py! "state") = some (optVal (Dict.get req.data (py! "state")))) ?_ rfl
    intro acc d hd hi
    have := get_updateHook (reserved := authResponseKeys) (acc := acc) (r := some d) (by rintro _ ⟨⟩; exact hd)
    rw [← hi]
    exact this _ (by decide)

theorem authorizationError_ok {cfg : Config} {data : Dict PyStr PyStr} {x : OErr} {r : Response}
    (h : authorizationError cfg data x = .ok r) : ∃ url, RedirectsTo r url x.params ∧
      ((x.kind = .fatal ∧ url = cfg.errorUrl) ∨
        (x.kind ≠ .fatal ∧ Dict.get data (py! "redirect_uri") = some url)) := by
  unfold authorizationError at h
  split at h
  · rename_i hk
    exact ⟨_, errorRedirect_spec h, Or.inl ⟨hk, rfl⟩⟩
  · rename_i hk
    unfold param Dict.getItem at h
    cases hu : Dict.get data (py! "redirect_uri") with
    | none => rw [hu] at h; cases h
    | some uri =>
      rw [hu] at h
      exact ⟨uri, errorRedirect_spec h, Or.inr ⟨hk, rfl⟩⟩

/-- Every response of the authorization endpoint sends a code to a registered URI or reports an error. -/
theorem authorize_redirect {env : OEnv} {table : Hooks} (hb : Benign table) {p : Provider} {req : Request} {tr : List Ev}
    {r : Response} (h : Exec (p.authorize env table req) tr (.ok r)) :
    (∃ uri code response, AuthorizeDone env table p req tr uri code response ∧ RedirectsTo r uri (strParams env response)) ∨
      ∃ (x : OErr) (url : PyStr), AuthFail env table p req tr (.oauth x) ∧ RedirectsTo r url x.params ∧
        ((x.kind = .fatal ∧ url = p.cfg.errorUrl) ∨
          (x.kind ≠ .fatal ∧ Dict.get req.data (py! "redirect_uri") = some url)) := by
  rcases authorize_response hb h with ⟨uri, code, response, url, hd, hu, hr⟩ | ⟨x, hx, hr⟩
  · exact Or.inl ⟨uri, code, response, hd,
      redirect_spec (ok_strParams env (authorizeDone_response hb hd).1) (urlencodeVals_ok hu) hr⟩
  · obtain ⟨url, h1, h2⟩ := authorizationError_ok hr
    exact Or.inr ⟨x, url, hx, h1, h2⟩

/-! ## When the redirect can be built -/

theorem encodable_urlencode {url u : PyStr} {params : NDict PyStr PyStr} (hu : Encodable url)
    (h : urlencode url params = .ok u) : Encodable u := by
  obtain ⟨ps, hps, rfl⟩ := urlencode_ok_iff h
  refine encodable_append hu (encodable_ascii ?_)
  intro c hc
  rcases List.mem_cons.mp hc with rfl | hc
  · decide
  · rcases query_chars hps c hc with rfl | rfl | rfl | rfl | h'
    · decide
    · decide
    · decide
    · decide
    · have := (alwaysSafe_iff c).mp h'
      omega

theorem redirectResponse_ok {u : PyStr} (hu : Encodable u) (hd : Dict PyStr PyStr) : ∃ r, redirectResponse u hd = .ok r := by
  obtain ⟨loc, hl⟩ := quotePlus_ok locSafe hu
  unfold redirectResponse
  rw [hl]
  exact ⟨_, rfl⟩

theorem errorRedirect_ok {url : PyStr} (hu : Encodable url) {x : OErr}
    (hx : ∀ t, x.error = some t ∨ x.description = some t ∨ x.uri = some t ∨ x.state = some t → Encodable t) :
    ∃ r, errorRedirect url x = .ok r := by
  obtain ⟨u, h⟩ := Props.C05_urlencode_total url x.dump (by
    intro k v hkv
    rw [dump_eq] at hkv
    have hkv := (List.mem_filter.mp hkv).1
    simp only [OErr.params, List.mem_cons, List.not_mem_nil, or_false, Prod.mk.injEq] at hkv
    rcases hkv with ⟨rfl, h⟩ | ⟨rfl, h⟩ | ⟨rfl, h⟩ | ⟨rfl, h⟩
    · exact ⟨encodable_ascii (by decide), hx v (Or.inl h.symm)⟩
    · exact ⟨encodable_ascii (by decide), hx v (Or.inr (Or.inl h.symm))⟩
    · exact ⟨encodable_ascii (by decide), hx v (Or.inr (Or.inr (Or.inl h.symm)))⟩
    · exact ⟨encodable_ascii (by decide), hx v (Or.inr (Or.inr (Or.inr h.symm)))⟩)
  unfold errorRedirect
  rw [h]
  obtain ⟨r, hr⟩ := redirectResponse_ok (encodable_urlencode hu h) x.headers
  dsimp only
  rw [hr]
  exact ⟨r, rfl⟩

/-! ## Reading the redirect -/

theorem mem_quoteByte {b : Byte} {c : Nat} (hc : c ∈ quoteByte locSafe b) (h : c = 63 ∨ c = 35) : b.val = c := by
  have hb := b.isLt
  unfold quoteByte at hc
  split at hc
  · simp at hc; omega
  split at hc
  · simp at hc; exact hc.symm
  · simp only [List.mem_cons, List.not_mem_nil, or_false] at hc
    have h1 := hexUp_val (n := b.val / 16) (by omega)
    have h2 := hexUp_val (n := b.val % 16) (by omega)
    rcases hc with rfl | rfl | rfl <;> omega

theorem utf8Char_ascii {c : Nat} {b : Bytes} (h : utf8EncodeChar c = .ok b) {x : Byte} (hx : x ∈ b) (hl : x.val < 128) :
    x.val = c := by
  have hs := (scalar_iff c).mp (utf8EncodeChar_scalar h)
  unfold utf8EncodeChar at h
  split at h
  · cases h
    rw [List.mem_singleton.mp hx, byte_of_lt (by omega)]
  · exfalso
    repeat' (split at h)
    all_goals cases h
    all_goals simp only [List.mem_cons, List.not_mem_nil, or_false] at hx
    · rcases hx with rfl | rfl <;> rw [byte_of_lt (by omega)] at hl <;> omega
    · rcases hx with rfl | rfl | rfl <;> rw [byte_of_lt (by omega)] at hl <;> omega
    · rcases hx with rfl | rfl | rfl | rfl <;> rw [byte_of_lt (by omega)] at hl <;> omega

theorem utf8_ascii_mem {s : PyStr} {b : Bytes} (h : utf8Encode s = .ok b) : ∀ x ∈ b, x.val < 128 → x.val ∈ s := by
  induction s generalizing b with
  | nil => cases h; simp
  | cons c s ih =>
    unfold utf8Encode at h
    split at h
    · cases h
    · rename_i a ha
      split at h
      · cases h
      · rename_i t ht
        cases h
        intro x hx hl
        rcases List.mem_append.mp hx with hx | hx
        · rw [utf8Char_ascii ha hx hl]; exact List.mem_cons_self
        · exact List.mem_cons_of_mem _ (ih ht x hx hl)

/-- The quoted URL has a `?` or a `#` only if the URL has one. -/
theorem quotePlus_delim {s q : PyStr} (h : quotePlus locSafe s = .ok q) {c : Nat} (hc : c = 63 ∨ c = 35) (hq : c ∈ q) :
    c ∈ s := by
  unfold quotePlus at h
  split at h
  · cases h
  · rename_i b hb
    cases h
    obtain ⟨x, hx, hxc⟩ := List.mem_flatMap.mp hq
    have hv := mem_quoteByte hxc hc
    rw [← hv]
    exact utf8_ascii_mem hb x hx (by omega)

theorem dropUnsafe_id {s : PyStr} (h : ∀ c ∈ s, 33 ≤ c) : dropUnsafe s = s := by
  unfold dropUnsafe
  rw [List.filter_eq_self]
  intro c hc
  have := h c hc
  simp
  omega

/-- The query of a redirect to a URI without query and fragment. -/
theorem urlQuery_location {uri base q : PyStr} {d : Dict PyStr PyStr} {ps : List PyStr} (hps : urlencodePairs d = .ok ps)
    (hbase : quotePlus locSafe uri = .ok base) (hq : q = joinWith [38] ps) (h1 : 63 ∉ uri) (h2 : 35 ∉ uri) :
    urlQuery (base ++ py! "?" ++ q) = q := by
  have hb1 : 63 ∉ base := fun h => h1 (quotePlus_delim hbase (Or.inl rfl) h)
  have hb2 : 35 ∉ base := fun h => h2 (quotePlus_delim hbase (Or.inr rfl) h)
  have hqc : ∀ c ∈ q, 33 ≤ c ∧ c ≠ 35 := by
    intro c hc
    rw [hq] at hc
    rcases query_chars hps c hc with rfl | rfl | rfl | rfl | h'
    · decide
    · decide
    · decide
    · decide
    · have := (alwaysSafe_iff c).mp h'
      omega
  unfold urlQuery
  dsimp only
  rw [dropUnsafe_id]
  · rw [splitOnce_none (sep := 35) |>.mpr]
    · dsimp only
      rw [List.append_assoc, show base ++ (py! "?" ++ q) = base ++ 63 :: q from rfl, splitOnce_append hb1]
    intro hm
    simp only [List.mem_append] at hm
    rcases hm with (hm | hm) | hm
    · exact hb2 hm
    · revert hm; decide
    · exact (hqc 35 hm).2 rfl
  · intro c hc
    simp only [List.mem_append] at hc
    rcases hc with (hc | hc) | hc
    · exact (Props.C06_location_safe uri base hbase c hc).1
    · have : c = 63 := by simpa using hc
      omega
    · exact (hqc c hc).1

/-- What the receiver of a redirect to a URI without query and fragment reads. -/
theorem redirect_query {url u : PyStr} {params : NDict PyStr PyStr} {hd : Dict PyStr PyStr} {r : Response}
    (hp : Dict.Ok params) (hu : urlencode url params = .ok u) (hr : redirectResponse u hd = .ok r)
    (h1 : 63 ∉ url) (h2 : 35 ∉ url) : ∃ loc, location r = some loc ∧ urldecode (urlQuery loc) = visible params := by
  obtain ⟨q, hq, hdec⟩ := Props.C05_urlencode_roundtrip url params hp u hu
  obtain ⟨ps, hps, hu'⟩ := urlencode_ok_iff hu
  have hqe : q = joinWith [38] ps := by
    have h3 : url ++ 63 :: q = url ++ 63 :: joinWith [38] ps := by rw [← hu', hq]; simp
    have := List.append_cancel_left h3
    cases this; rfl
  unfold redirectResponse at hr
  split at hr
  · cases hr
  · rename_i loc hloc
    cases hr
    rw [hu'] at hloc
    obtain ⟨a, b, ha, hb, rfl⟩ := quotePlus_split hloc
    rw [query_location hps] at hb
    cases hb
    refine ⟨a ++ 63 :: joinWith [38] ps, ?_, ?_⟩
    · unfold location
      rw [get_setItem_location]
    · have := urlQuery_location hps ha hqe h1 h2
      rw [hqe, List.append_assoc] at this
      rw [show a ++ 63 :: joinWith [38] ps = a ++ (py! "?" ++ joinWith [38] ps) from rfl, this, ← hqe, hdec]
      rfl

end Psion
