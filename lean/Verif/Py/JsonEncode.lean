import Verif.Py.JsonLemmas
import Verif.Py.Utf8Lemmas

/-!
# When JSON texts can be encoded
-/

namespace Psion

mutual
/-- All texts in the value (keys included) can be encoded as UTF-8. -/
def Val.Enc : Val → Prop
  | .str s => Encodable s
  | .list l => Val.EncL l
  | .dict d => Val.EncD d
  | _ => True
def Val.EncL : List Val → Prop
  | [] => True
  | v :: l => Val.Enc v ∧ Val.EncL l
def Val.EncD : List (PyStr × Val) → Prop
  | [] => True
  | (k, v) :: d => Encodable k ∧ Val.Enc v ∧ Val.EncD d
end

theorem encodable_append {s t : PyStr} (hs : Encodable s) (ht : Encodable t) : Encodable (s ++ t) := fun c hc =>
  (List.mem_append.mp hc).elim (hs c) (ht c)

theorem encodable_cons {c : Nat} {s : PyStr} (hc : c < 128) (hs : Encodable s) : Encodable (c :: s) := by
  intro d hd
  rcases List.mem_cons.mp hd with rfl | hd
  · rw [scalar_iff]; omega
  · exact hs d hd

theorem encodable_nil : Encodable [] := fun _ h => absurd h List.not_mem_nil

theorem encodable_ascii {s : PyStr} (h : ∀ c ∈ s, c < 128) : Encodable s := by
  intro c hc
  have := h c hc
  rw [scalar_iff]; omega

theorem encodable_digits {s : PyStr} (h : ∀ c ∈ s, isDigit c = true) : Encodable s := by
  refine encodable_ascii (fun c hc => ?_)
  have := h c hc
  simp only [isDigit, Bool.and_eq_true, decide_eq_true_eq] at this
  omega

theorem encodable_jsonStr {s : PyStr} (h : Encodable s) : Encodable (jsonStr s) := by
  unfold jsonStr
  refine encodable_cons (by decide) (encodable_append ?_ (encodable_cons (by decide) encodable_nil))
  intro c hc
  obtain ⟨d, hd, hc⟩ := List.mem_flatMap.mp hc
  have hsc := h d hd
  rw [scalar_iff] at hsc ⊢
  unfold jsonEscape hexLow at hc
  simp only [apply_ite (fun l => c ∈ l)] at hc
  repeat' split at hc
  all_goals simp only [List.mem_cons, List.not_mem_nil, or_false] at hc
  all_goals (try (rcases hc with hc | hc | hc | hc | hc | hc)) <;> (try split at hc) <;> omega

theorem encodable_int (i : Int) : Encodable (intStr i) := by
  unfold intStr
  split
  · exact encodable_cons (by decide) (encodable_digits (natStr_digits _))
  · exact encodable_digits (natStr_digits _)

theorem encodable_float {fe : FloatEnv} (hl : FloatLaws fe) (f : F64) : Encodable (floatStr fe f) := by
  unfold floatStr
  split
  · exact encodable_ascii (by decide)
  split
  · rename_i hfin
    obtain ⟨neg, ip, fp, ep, hrepr, ⟨hd, -⟩, hfp, hep, -⟩ := hl.shape f hfin
    rw [hrepr]
    refine encodable_append (encodable_append (encodable_append ?_ (encodable_digits hd)) ?_) ?_
    · cases neg
      · exact encodable_nil
      · exact encodable_ascii (by decide)
    · rcases hfp with rfl | ⟨d, t, rfl, hd, ht⟩
      · exact encodable_nil
      · refine encodable_cons (by decide) (encodable_digits ?_)
        intro c hc
        rcases List.mem_cons.mp hc with rfl | hc
        · exact hd
        · exact ht c hc
    · rcases hep with rfl | ⟨e, g, d, t, rfl, he, hg, hd, ht⟩
      · exact encodable_nil
      · refine encodable_cons (by omega) (encodable_cons (by omega) (encodable_digits ?_))
        intro c hc
        rcases List.mem_cons.mp hc with rfl | hc
        · exact hd
        · exact ht c hc
  split
  · exact encodable_ascii (by decide)
  · exact encodable_ascii (by decide)

mutual
theorem encodable_print {fe : FloatEnv} (hl : FloatLaws fe) : (v : Val) → v.Enc → Encodable (jsonPrint fe v)
  | .none, _ => encodable_ascii (by rw [jsonPrint]; decide)
  | .bool true, _ => encodable_ascii (by rw [jsonPrint]; decide)
  | .bool false, _ => encodable_ascii (by rw [jsonPrint]; decide)
  | .int i, _ => encodable_int i
  | .float f, _ => encodable_float hl f
  | .str _, h => encodable_jsonStr h
  | .list [], _ => encodable_ascii (by rw [jsonPrint]; decide)
  | .list (v :: l), h => by
    rw [jsonPrint]
    exact encodable_cons (by decide) (encodable_append (encodable_print hl v h.1) (encodable_printL hl l h.2))
  | .dict [], _ => encodable_ascii (by rw [jsonPrint]; decide)
  | .dict ((k, v) :: d), h => by
    rw [jsonPrint]
    exact encodable_cons (by decide) (encodable_append (encodable_jsonStr h.1)
      (encodable_cons (by decide) (encodable_cons (by decide)
        (encodable_append (encodable_print hl v h.2.1) (encodable_printD hl d h.2.2)))))
theorem encodable_printL {fe : FloatEnv} (hl : FloatLaws fe) : (l : List Val) → Val.EncL l →
    Encodable (jsonPrintL fe l)
  | [], _ => encodable_ascii (by rw [jsonPrintL]; decide)
  | v :: l, h => by
    rw [jsonPrintL]
    exact encodable_cons (by decide) (encodable_cons (by decide)
      (encodable_append (encodable_print hl v h.1) (encodable_printL hl l h.2)))
theorem encodable_printD {fe : FloatEnv} (hl : FloatLaws fe) : (d : List (PyStr × Val)) → Val.EncD d →
    Encodable (jsonPrintD fe d)
  | [], _ => encodable_ascii (by rw [jsonPrintD]; decide)
  | (k, v) :: d, h => by
    rw [jsonPrintD]
    exact encodable_cons (by decide) (encodable_cons (by decide) (encodable_append (encodable_jsonStr h.1)
      (encodable_cons (by decide) (encodable_cons (by decide)
        (encodable_append (encodable_print hl v h.2.1) (encodable_printD hl d h.2.2))))))
end

theorem encD_iff {d : Dict PyStr Val} : Val.EncD d ↔ ∀ kv ∈ d, Encodable kv.1 ∧ Val.Enc kv.2 := by
  induction d with
  | nil => simp [Val.EncD]
  | cons p d ih => obtain ⟨k, v⟩ := p; simp [Val.EncD, ih, and_assoc]

end Psion
