import Verif.OAuth.ProgLemmas
import Verif.Spec.OAuth
import Verif.Props.Webtools

/-!
# Requests and responses: lemmas
-/

namespace Psion

open Spec

/-! ## Running a coroutine against an oracle (for concrete executions) -/

/-- Runs a coroutine; the oracle sees what happened so far. -/
def Prog.run {α : Type} (orc : List Ev → (o : Op) → ORes o.Ans) : List Ev → Prog α → List Ev × α
  | h, .done a => (h, a)
  | h, .op o k => Prog.run orc (h ++ [⟨o, orc h o⟩]) (k (orc h o))

theorem run_exec {α : Type} (orc : List Ev → (o : Op) → ORes o.Ans) (p : Prog α) : ∀ h : List Ev,
    ∃ tr, (Prog.run orc h p).1 = h ++ tr ∧ Exec p tr (Prog.run orc h p).2 := by
  induction p with
  | done a => intro h; exact ⟨[], by simp [Prog.run], .done a⟩
  | op o k ih =>
    intro h
    obtain ⟨tr, h1, h2⟩ := ih (orc h o) (h ++ [⟨o, orc h o⟩])
    exact ⟨⟨o, orc h o⟩ :: tr, by simp [Prog.run, h1], .op o k _ tr _ h2⟩

/-- The execution of a coroutine against an oracle is an execution. -/
theorem exec_run {α : Type} (orc : List Ev → (o : Op) → ORes o.Ans) (p : Prog α) :
    Exec p (Prog.run orc [] p).1 (Prog.run orc [] p).2 := by
  obtain ⟨tr, h1, h2⟩ := run_exec orc p []
  rw [h1]
  exact h2

/-- Every answer in a run comes from the oracle. -/
theorem run_answers {α : Type} (orc : List Ev → (o : Op) → ORes o.Ans) (p : Prog α) : ∀ h : List Ev,
    ∀ ev ∈ (Prog.run orc h p).1, ev ∈ h ∨ ∃ h', ev.ans = orc h' ev.op := by
  induction p with
  | done a => intro h ev hev; exact Or.inl hev
  | op o k ih =>
    intro h ev hev
    rcases ih _ _ ev hev with hev | hev
    · rcases List.mem_append.mp hev with hev | hev
      · exact Or.inl hev
      · rw [List.mem_singleton.mp hev]
        exact Or.inr ⟨h, rfl⟩
    · exact Or.inr hev

/-! ## Requests -/

theorem unquoteBytes_ne_nil {s : PyStr} (h : s ≠ []) : unquoteBytes s ≠ [] := by
  obtain ⟨c, t, rfl⟩ := List.exists_cons_of_ne_nil h
  rw [unquoteBytes.eq_def]
  dsimp only
  split
  · split
    · split <;> simp
    · simp
    · simp
  · simp

theorem utf8DecodeReplace_ne_nil {b : Bytes} (h : b ≠ []) : utf8DecodeReplace b ≠ [] := by
  intro h'
  exact h (utf8Segs_eq_nil (by simpa [utf8DecodeReplace] using h'))

theorem unquoteLoop_ne_nil (s : PyStr) : ∀ run, (run ≠ [] ∨ s ≠ []) → unquoteLoop run s ≠ [] := by
  induction s with
  | nil =>
    intro run h
    rw [unquoteLoop]
    exact utf8DecodeReplace_ne_nil (unquoteBytes_ne_nil (by simpa using h))
  | cons c s ih =>
    intro run _
    rw [unquoteLoop]
    split
    · exact ih _ (Or.inl (by simp))
    · simp

theorem unquotePlus_ne_nil {s : PyStr} (h : s ≠ []) : unquotePlus s ≠ [] :=
  unquoteLoop_ne_nil _ _ (Or.inr (by simpa using h))

theorem parseQsl_ne_nil {q k v : PyStr} (h : (k, v) ∈ parseQsl q) : v ≠ [] := by
  simp only [parseQsl, List.mem_filterMap] at h
  obtain ⟨p, _, hp⟩ := h
  unfold parsePair at hp
  split at hp
  · cases hp
  · split at hp
    · cases hp
    · rename_i hne
      cases hp
      exact unquotePlus_ne_nil hne

theorem urldecode_ne_nil {q k v : PyStr} (h : (k, v) ∈ urldecode q) : v ≠ [] := by
  rcases Dict.mem_update h with h | h
  · simp at h
  · exact parseQsl_ne_nil h

theorem urldecode_ok (q : PyStr) : Dict.Ok (urldecode q) := Dict.ok_ofPairs _

theorem form_ok (r : Request) : Dict.Ok r.form := by
  unfold Request.form
  split
  · simp [Dict.Ok, Dict.keys]
  · exact urldecode_ok _

theorem form_ne_nil {r : Request} {k v : PyStr} (h : (k, v) ∈ r.form) : v ≠ [] := by
  unfold Request.form at h
  split at h
  · simp at h
  · exact urldecode_ne_nil h

theorem get_data (r : Request) (k : PyStr) :
    Dict.get r.data k = (Dict.get r.form k).or (Dict.get r.query k) := by
  unfold Request.data
  rw [Dict.get_update_ok (form_ok r)]

/-! ## Responses -/

theorem urlencode_ok_iff {url u : PyStr} {params : NDict PyStr PyStr} (h : urlencode url params = .ok u) :
    ∃ ps, urlencodePairs (someEntries params) = .ok ps ∧ u = url ++ 63 :: joinWith [38] ps := by
  unfold urlencode at h
  rw [someEntries_init] at h
  split at h
  · cases h
  · rename_i ps hps
    cases h
    exact ⟨ps, hps, rfl⟩

theorem quotePlus_split {safe : Nat → Bool} {s t q : PyStr} (h : quotePlus safe (s ++ t) = .ok q) :
    ∃ a b, quotePlus safe s = .ok a ∧ quotePlus safe t = .ok b ∧ q = a ++ b := by
  have he := quotePlus_encodable h
  obtain ⟨a, ha⟩ := quotePlus_ok safe (s := s) (fun c hc => he c (List.mem_append_left _ hc))
  obtain ⟨b, hb⟩ := quotePlus_ok safe (s := t) (fun c hc => he c (List.mem_append_right _ hc))
  refine ⟨a, b, ha, hb, ?_⟩
  have := quotePlus_append ha hb
  rw [h] at this
  exact Except.ok.inj this

theorem query_location {d : Dict PyStr PyStr} {ps : List PyStr} (h : urlencodePairs d = .ok ps) :
    quotePlus locSafe (63 :: joinWith [38] ps) = .ok (63 :: joinWith [38] ps) := by
  apply quotePlus_safe
  intro c hc
  rw [Bool.or_eq_true, locSafe_iff]
  rcases List.mem_cons.mp hc with rfl | hc
  · simp
  · rcases query_chars h c hc with rfl | rfl | rfl | rfl | h'
    · simp
    · simp
    · simp
    · simp
    · have := (alwaysSafe_iff c).mp h'
      exact ⟨by omega, by omega, Or.inl h'⟩

theorem get_setItem_location (d : NDict PyStr PyStr) (loc : PyStr) :
    (Dict.get (FullDict.setItem d (py! "Location") (some loc)) (py! "Location")).join = some loc := by
  simp [FullDict.setItem]

/-- A redirect to an encoded URL. -/
theorem redirect_spec {url u : PyStr} {params : NDict PyStr PyStr} {hd : Dict PyStr PyStr} {r : Response}
    (hp : Dict.Ok params) (hu : urlencode url params = .ok u) (hr : redirectResponse u hd = .ok r) :
    RedirectsTo r url params := by
  obtain ⟨q, hq, hdec⟩ := Props.C05_urlencode_roundtrip url params hp u hu
  obtain ⟨ps, hps, hu'⟩ := urlencode_ok_iff hu
  unfold redirectResponse at hr
  split at hr
  · cases hr
  · rename_i loc hloc
    cases hr
    rw [hu'] at hloc hq
    obtain ⟨a, b, ha, hb, rfl⟩ := quotePlus_split hloc
    rw [query_location hps] at hb
    cases hb
    refine ⟨rfl, a, joinWith [38] ps, ha, ?_, ?_⟩
    · unfold location
      rw [get_setItem_location]
      simp
    · have : q = joinWith [38] ps := by
        have h2 : url ++ 63 :: joinWith [38] ps = url ++ 63 :: q := by simpa using hq
        have := List.append_cancel_left h2
        cases this; rfl
      rw [← this, hdec]
      rfl

theorem ok_params (e : OErr) : Dict.Ok e.params := by
  unfold OErr.params Dict.Ok Dict.keys
  simp only [List.map]
  decide

theorem ok_dump (e : OErr) : Dict.Ok e.dump :=
  Dict.ok_filter (Dict.ok_update (by simp [Dict.Ok, Dict.keys]) _) _

theorem dump_eq (e : OErr) : e.dump = dropNone e.params := by
  unfold OErr.dump FullDict.init
  have := Dict.ofPairs_ok (ok_params e)
  unfold Dict.ofPairs at this
  rw [this]

theorem visible_dropNone (d : NDict PyStr PyStr) : visible (dropNone d) = visible d := by
  unfold visible dropNone
  rw [List.filterMap_filter]
  congr 1
  funext kv
  obtain ⟨k, v⟩ := kv
  cases v <;> rfl

theorem errorRedirect_spec {url : PyStr} {e : OErr} {r : Response} (h : errorRedirect url e = .ok r) :
    RedirectsTo r url e.params := by
  unfold errorRedirect at h
  split at h
  · cases h
  · rename_i u hu
    have : redirectResponse u e.headers = .ok r := by
      revert h
      cases redirectResponse u e.headers <;> simp [liftRes]
    have h2 := redirect_spec (ok_dump e) hu this
    unfold RedirectsTo at h2 ⊢
    rw [dump_eq, visible_dropNone] at h2
    exact h2

end Psion
