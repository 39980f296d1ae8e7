import Verif.Props.Authorize
import Verif.Props.Form

/-!
# C48: redirect URIs with a query or a fragment

RFC 6749, section 3.1.2: the redirect URI may have a query, which must be retained when parameters are added.
-/

namespace Psion.Props

open Psion Spec

/-! ## A question mark stands for itself -/

theorem items_mark {s : PyStr} {l : List Item} (h : Items s l) (hm : 63 ∈ s) : .byte 63 ∈ l := by
  induction h with
  | nil => cases hm
  | plus s l _ ih =>
    rcases List.mem_cons.mp hm with h | h
    · cases h
    · exact List.mem_cons_of_mem _ (ih h)
  | escape a b x y s l ha hb _ ih =>
    simp only [List.mem_cons] at hm
    rcases hm with h | rfl | rfl | h
    · cases h
    · rcases ha with h | h | h <;> omega
    · rcases hb with h | h | h <;> omega
    · exact List.mem_cons_of_mem _ (ih h)
  | plain c s l _ _ _ _ ih =>
    rcases List.mem_cons.mp hm with rfl | h
    · exact List.mem_cons_self
    · exact List.mem_cons_of_mem _ (ih h)
  | other c s l hc _ ih =>
    rcases List.mem_cons.mp hm with rfl | h
    · omega
    · exact List.mem_cons_of_mem _ (ih h)

theorem utf8_mark {c : Nat} {b : Bytes} (h : Utf8 c b) (hm : (63 : Byte) ∈ b) : c = 63 ∧ b = [63] := by
  have e : ((63 : Byte)).val = 63 := rfl
  cases h with
  | one b0 _ h0 =>
    have := List.mem_singleton.mp hm
    subst this
    exact ⟨h0.symm, rfl⟩
  | two b0 b1 _ _ h0 h1 =>
    simp only [List.mem_cons, List.not_mem_nil, or_false] at hm
    rcases hm with rfl | rfl <;> omega
  | three b0 b1 b2 _ _ _ h0 h1 h2 =>
    simp only [List.mem_cons, List.not_mem_nil, or_false] at hm
    rcases hm with rfl | rfl | rfl <;> omega
  | four b0 b1 b2 b3 _ _ h0 h1 h2 h3 =>
    simp only [List.mem_cons, List.not_mem_nil, or_false] at hm
    rcases hm with rfl | rfl | rfl | rfl <;> omega

theorem illFormed_mark {b : Bytes} {l : List Item} (h : IllFormed b l) : (63 : Byte) ∉ b := by
  intro hm
  rcases h with ⟨-, ⟨c, e, he, hu⟩, -⟩ | ⟨x, rfl, hx⟩
  · obtain ⟨-, h⟩ := utf8_mark hu (List.mem_append_left _ hm)
    cases b with
    | nil => cases hm
    | cons x b => cases b <;> simp_all
  · rw [List.mem_singleton] at hm
    subst hm
    exact hx 63 [] (.one 63 63 (by decide) rfl)

theorem decoded_mark {l : List Item} {t : PyStr} (h : Decoded l t) (hm : .byte 63 ∈ l) : 63 ∈ t := by
  induction h with
  | nil => cases hm
  | char c l t _ ih =>
    rcases List.mem_cons.mp hm with h | h
    · cases h
    · exact List.mem_cons_of_mem _ (ih h)
  | good c b l t hu _ ih =>
    rcases List.mem_append.mp hm with h | h
    · obtain ⟨x, hx, e⟩ := List.mem_map.mp h
      cases e
      rw [(utf8_mark hu hx).1]
      exact List.mem_cons_self
    · exact List.mem_cons_of_mem _ (ih h)
  | bad b l t hi _ ih =>
    rcases List.mem_append.mp hm with h | h
    · obtain ⟨x, hx, e⟩ := List.mem_map.mp h
      cases e
      exact absurd hx (illFormed_mark hi)
    · exact List.mem_cons_of_mem _ (ih h)

theorem written_mark {s t : PyStr} (h : Written s t) (hm : 63 ∈ s) : 63 ∈ t :=
  let ⟨_, h1, h2⟩ := h
  decoded_mark h2 (items_mark h1 hm)

/-! ## Where the code is -/

theorem last_segment (s : PyStr) : 38 ∉ s ∨ ∃ a b, s = a ++ 38 :: b ∧ 38 ∉ b := by
  induction s with
  | nil => exact .inl nofun
  | cons c s ih =>
    rcases ih with h | ⟨a, b, rfl, h⟩
    · by_cases hc : c = 38
      · subst hc
        exact .inr ⟨[], s, rfl, h⟩
      · exact .inl (fun hm => (List.mem_cons.mp hm).elim (fun e => hc e.symm) h)
    · exact .inr ⟨c :: a, b, rfl, h⟩

theorem update_head {k : PyStr} {v : Val} {rest d : Dict PyStr Val} :
    ∃ v' rest', Dict.update ((k, v) :: rest) d = (k, v') :: rest' := by
  unfold Dict.update
  induction d generalizing v rest with
  | nil => exact ⟨v, rest, rfl⟩
  | cons p d ih =>
    rw [List.foldl_cons]
    by_cases h : k = p.1
    · rw [show Dict.set ((k, v) :: rest) p.1 p.2 = (k, p.2) :: rest by simp [Dict.set, h]]
      exact ih
    · simp only [Dict.set, h, if_false]
      exact ih

/-- The code is the first parameter of a response. -/
theorem authorizeDone_first {env : OEnv} {table : Hooks} (hb : Benign table) {p : Provider} {req : Request}
    {tr : List Ev} {uri code : PyStr} {response : Dict PyStr Val} (h : AuthorizeDone env table p req tr uri code response) :
    ∃ rest, response = (py! "code", .str code) :: rest := by
  have hcode := (authorizeDone_response hb h).2.1
  obtain ⟨-, c, u, valid, -, -, -, tr', hx, -⟩ := h
  have : ∃ v rest, response = (py! "code", v) :: rest := by
    refine runHooks_inv (reserved := authResponseKeys) (h := tr')
      (I := fun d => ∃ v rest, d = (py! "code", v) :: rest)
      (acc0 := [(py! "code", .str code), (py! "state", optVal (Dict.get req.data (py! "state")))])
      (benign_authResponse hb code valid c u) ?_ (fun _ _ => rfl) ⟨_, _, rfl⟩ List.infix_rfl hx
    rintro f hf acc tr2 d _ _ hx2 ⟨v, rest, rfl⟩
    exact update_head
  obtain ⟨v, rest, rfl⟩ := this
  rw [Dict.get_cons, if_pos rfl] at hcode
  cases hcode
  exact ⟨rest, rfl⟩

/-- The pieces of a query to which a question mark and further pieces are appended. -/
theorem splitOn_appended {b x : PyStr} {ps : List PyStr} (hx : 38 ∉ x) (hps : ∀ p ∈ ps, 38 ∉ p) :
    ∃ l y, splitOn 38 (b ++ 63 :: joinWith [38] (x :: ps)) = l ++ (y ++ 63 :: x) :: ps ∧ ∀ p ∈ l, p ∈ splitOn 38 b := by
  have tail : ∀ y : PyStr, 38 ∉ y → splitOn 38 (y ++ 63 :: joinWith [38] (x :: ps)) = (y ++ 63 :: x) :: ps := by
    intro y hy
    have e : y ++ 63 :: joinWith [38] (x :: ps) = joinWith [38] ((y ++ 63 :: x) :: ps) := by
      cases ps <;> simp [joinWith]
    rw [e, splitOn_join _ ?_ (by simp)]
    intro p hp
    rcases List.mem_cons.mp hp with rfl | hp
    · intro hm
      rcases List.mem_append.mp hm with hm | hm
      · exact hy hm
      · rcases List.mem_cons.mp hm with hm | hm
        · cases hm
        · exact hx hm
    · exact hps p hp
  rcases last_segment b with h | ⟨a, c, rfl, h⟩
  · exact ⟨[], b, tail b h, nofun⟩
  · refine ⟨splitOn 38 a, c, ?_, ?_⟩
    · rw [List.append_assoc, List.cons_append, splitOn_append_sep, tail c h]
    · intro p hp
      rw [splitOn_append_sep]
      exact List.mem_append_left _ hp

theorem quotePlus_mark {s q : PyStr} (h : quotePlus locSafe s = .ok q) {c : Nat} (hc : c = 63 ∨ c = 35) (hm : c ∈ s) : c ∈ q := by
  obtain ⟨a, b, rfl⟩ := List.append_of_mem hm
  obtain ⟨a', b', -, hb, rfl⟩ := quotePlus_split h
  obtain ⟨c', b'', hc', -, rfl⟩ := quotePlus_split (s := [c]) (t := b) hb
  have : c' = [c] := by
    rcases hc with rfl | rfl
    · rw [show quotePlus locSafe [63] = .ok [63] by decide] at hc'; cases hc'; rfl
    · rw [show quotePlus locSafe [35] = .ok [35] by decide] at hc'; cases hc'; rfl
  subst this
  simp

/-- C48 is false for every redirect URI with a query, and not only for the one of `C48_refuted`: in the Location header of a response with a
code, the parameter `code` does not have the code as its value, unless the registered URI itself contained this parameter with the value
that was drawn now. Hooks may add other parameters. -/
theorem C48_query_refuted (env : OEnv) (table : Hooks) (hb : Benign table) (p : Provider) (req : Request) (tr : List Ev)
    (r : Response) (uri : PyStr) (h : Exec (p.authorize env table req) tr (.ok r))
    (hu : Dict.get req.data (py! "redirect_uri") = some uri) (h1 : 63 ∈ uri) (h2 : 35 ∉ uri) :
    (∃ code data c u, (⟨.saveCode code data c u, .ok ()⟩ : Ev) ∈ tr ∧ ∃ loc q base q0, location r = some loc ∧ QueryOf loc q ∧
      quotePlus locSafe uri = .ok base ∧ QueryOf base q0 ∧
      (Parameter q (py! "code") code → ∃ ps, Pieces q0 ps ∧ ∃ p ∈ ps, Field p (py! "code") code)) ∨
    ∃ x : OErr, ∃ url, RedirectsTo r url x.params := by
  rcases authorize_response hb h with ⟨uri', code, response, url, hd, hue, hr⟩ | ⟨x, -, hr⟩
  · left
    obtain ⟨hok, -, -⟩ := authorizeDone_response hb hd
    obtain ⟨rest, rfl⟩ := authorizeDone_first hb hd
    obtain ⟨⟨id, c0, -, -, h3, -⟩, c, u, valid, -, hs, ⟨choices, -, hdrawn⟩, -⟩ := hd
    rw [hu] at h3
    cases h3
    have hmark : 63 ∉ code := by
      have hne : choices.val ≠ [] := by
        intro e
        rw [e] at hdrawn
        cases hdrawn
      obtain ⟨t, ht, -, hall, -⟩ := C10_secret_token choices.val hne
      rw [hdrawn] at ht
      cases ht
      intro hm
      have := hall 63 hm
      omega
    have hue := urlencodeVals_ok hue
    obtain ⟨ps, hps, hu'⟩ := urlencode_ok_iff hue
    have hokp := ok_strParams env hok
    have hsome : ∃ v0 d0, someEntries (strParams env ((py! "code", .str code) :: rest)) = (py! "code", v0) :: d0 :=
      ⟨_, _, rfl⟩
    have hoks := ok_someEntries hokp
    obtain ⟨v0, d0, hsome⟩ := hsome
    rw [hsome] at hps hoks
    have hps0 := hps
    unfold urlencodePairs at hps
    split at hps
    · cases hps
    split at hps
    · cases hps
    split at hps
    · cases hps
    rename_i _ k' hk _ v' hv _ ps' hps'
    cases hps
    have hk' : k' = py! "code" := by
      rw [show quotePlus noSafe (py! "code") = .ok (py! "code") by decide] at hk
      cases hk
      rfl
    subst hk'
    obtain ⟨-, hamp, -, -⟩ := urlencodePairs_spec hps0
    obtain ⟨hfm, -, -, -⟩ := urlencodePairs_spec hps'
    unfold redirectResponse at hr
    split at hr
    · cases hr
    rename_i loc hloc
    cases hr
    rw [hu'] at hloc
    obtain ⟨base, b, ha, hb', rfl⟩ := quotePlus_split hloc
    rw [query_location hps0] at hb'
    cases hb'
    have hb63 := quotePlus_mark ha (Or.inl rfl) h1
    have hb35 : 35 ∉ base := fun h => h2 (quotePlus_delim ha (Or.inr rfl) h)
    obtain ⟨b1, b2, hsplit⟩ : ∃ b1 b2, splitOnce 63 base = some (b1, b2) := by
      cases hsp : splitOnce 63 base with
      | none => exact absurd hb63 (splitOnce_none.mp hsp)
      | some ab => exact ⟨_, _, rfl⟩
    obtain ⟨hbase, hb1⟩ := splitOnce_some hsplit
    have hsafe : ∀ c ∈ base, 33 ≤ c := fun c hc => (C06_location_safe uri base ha c hc).1
    have hqc : ∀ c ∈ 63 :: joinWith [38] ((py! "code" ++ 61 :: v') :: ps'), 33 ≤ c ∧ c ≠ 35 := by
      intro c hc
      rcases List.mem_cons.mp hc with rfl | hc
      · decide
      rcases query_chars hps0 c hc with rfl | rfl | rfl | rfl | h'
      · decide
      · decide
      · decide
      · decide
      · have := (alwaysSafe_iff c).mp h'
        omega
    refine ⟨code, valid, c, u, hs, base ++ 63 :: joinWith [38] ((py! "code" ++ 61 :: v') :: ps'),
      b2 ++ 63 :: joinWith [38] ((py! "code" ++ 61 :: v') :: ps'), base, b2, ?_, ?_, ha, ?_, ?_⟩
    · unfold location
      rw [get_setItem_location]
    · rw [queryOf_iff]
      unfold urlQuery
      dsimp only
      rw [dropUnsafe_id, splitOnce_none (sep := 35) |>.mpr]
      · dsimp only
        rw [hbase, List.append_assoc, List.cons_append, splitOnce_append hb1]
      · intro hm
        rcases List.mem_append.mp hm with hm | hm
        · exact hb35 hm
        · exact (hqc 35 hm).2 rfl
      · intro c hc
        rcases List.mem_append.mp hc with hc | hc
        · exact hsafe c hc
        · exact (hqc c hc).1
    · rw [queryOf_iff]
      unfold urlQuery
      dsimp only
      rw [dropUnsafe_id hsafe, splitOnce_none (sep := 35) |>.mpr hb35]
      dsimp only
      rw [hsplit]
    · rintro ⟨qs, l, f, r, hqs, rfl, hf, -⟩
      obtain ⟨l0, y, hl0, hsub⟩ := splitOn_appended (b := b2) (hamp _ List.mem_cons_self) (fun p hp => hamp p (List.mem_cons_of_mem _ hp))
      have hmem : f ∈ l0 ++ (y ++ 63 :: (py! "code" ++ 61 :: v')) :: ps' := by
        rw [← hl0, pieces_iff.mp hqs]
        simp
      rcases List.mem_append.mp hmem with hm | hm
      · exact ⟨_, pieces_iff.mpr rfl, f, hsub f hm, hf⟩
      · exfalso
        rcases List.mem_cons.mp hm with rfl | hm
        · obtain ⟨a, b, e, -, -, hwa, hwb⟩ := hf
          have hin : 63 ∈ a ++ 61 :: b := by
            rw [← e]
            simp
          rcases List.mem_append.mp hin with h | h
          · exact absurd (written_mark hwa h) (by decide)
          · rcases List.mem_cons.mp h with h | h
            · cases h
            · exact hmark (written_mark hwb h)
        · have := List.mem_filterMap.mpr ⟨f, hm, field_iff.mpr hf⟩
          rw [hfm] at this
          have := (List.mem_filter.mp this).1
          have hnd : (Dict.keys ((py! "code", v0) :: d0)).Nodup := hoks
          exact (List.nodup_cons.mp hnd).1 (List.mem_map.mpr ⟨_, this, rfl⟩)
  · right
    obtain ⟨url, hr, -⟩ := authorizationError_ok hr
    exact ⟨x, url, hr⟩

/-- C48 is false for every redirect URI with a fragment, too: the whole response becomes a part of the fragment. (RFC 6749, section 3.1.2,
forbids such URIs, but the code does not check this.) -/
theorem C48_fragment_refuted (env : OEnv) (table : Hooks) (hb : Benign table) (p : Provider) (req : Request) (tr : List Ev)
    (r : Response) (uri : PyStr) (h : Exec (p.authorize env table req) tr (.ok r))
    (hu : Dict.get req.data (py! "redirect_uri") = some uri) (h2 : 35 ∈ uri) :
    (∃ code data c u, (⟨.saveCode code data c u, .ok ()⟩ : Ev) ∈ tr ∧ ∃ loc base, location r = some loc ∧
      quotePlus locSafe uri = .ok base ∧ ∀ q, QueryOf loc q ↔ QueryOf base q) ∨
    ∃ x : OErr, ∃ url, RedirectsTo r url x.params := by
  rcases authorize_response hb h with ⟨uri', code, response, url, hd, hue, hr⟩ | ⟨x, -, hr⟩
  · left
    obtain ⟨⟨id, c0, -, -, h3, -⟩, c, u, valid, -, hs, -⟩ := hd
    rw [hu] at h3
    cases h3
    obtain ⟨ps, hps, hu'⟩ := urlencode_ok_iff (urlencodeVals_ok hue)
    unfold redirectResponse at hr
    split at hr
    · cases hr
    rename_i loc hloc
    cases hr
    rw [hu'] at hloc
    obtain ⟨base, b, ha, hb', rfl⟩ := quotePlus_split hloc
    refine ⟨code, valid, c, u, hs, base ++ b, base, ?_, ha, fun q => ?_⟩
    · unfold location
      rw [get_setItem_location]
    · rw [queryOf_iff, queryOf_iff]
      have hb35 := quotePlus_mark ha (Or.inr rfl) h2
      have hd : dropUnsafe base = base := dropUnsafe_id (fun c hc => (C06_location_safe uri base ha c hc).1)
      obtain ⟨b1, b2, hsplit⟩ : ∃ b1 b2, splitOnce 35 base = some (b1, b2) := by
        cases hsp : splitOnce 35 base with
        | none => exact absurd hb35 (splitOnce_none.mp hsp)
        | some ab => exact ⟨_, _, rfl⟩
      obtain ⟨hbase, hb1⟩ := splitOnce_some hsplit
      have e : urlQuery (base ++ b) = urlQuery base := by
        unfold urlQuery
        dsimp only
        rw [show dropUnsafe (base ++ b) = base ++ dropUnsafe b by unfold dropUnsafe at hd ⊢; rw [List.filter_append, hd], hd, hsplit,
          hbase, List.append_assoc, List.cons_append, splitOnce_append hb1]
      rw [e]
  · right
    obtain ⟨url, hr, -⟩ := authorizationError_ok hr
    exact ⟨x, url, hr⟩

/-- The hypotheses are satisfiable: the response to a request with a redirect URI with a query has a code and no error. -/
example : isRedirect (py! "https://c/cb?x=1?code=" ++ toyDrawn ++ py! "&state=x+%26y") (toyAuth toyQueryAdapter toyQueryRequest).2 = true ∧
    Dict.get toyQueryRequest.data (py! "redirect_uri") = some (py! "https://c/cb?x=1") := by decide +kernel

/-- A client whose redirect URI has a fragment. -/
def toyFragmentClient : Client := { toyClient with redirectUris := [py! "https://c/cb#x"] }

example : isRedirect (py! "https://c/cb#x?code=" ++ toyDrawn ++ py! "&state=x+%26y")
    (toyAuth (toyAdapter toyFragmentClient (toyCode []) (toyRefresh []))
      (toyGet (Dict.set toyAuthQuery (py! "redirect_uri") (py! "https://c/cb#x")) (some toyUser))).2 = true := by decide +kernel

end Psion.Props
