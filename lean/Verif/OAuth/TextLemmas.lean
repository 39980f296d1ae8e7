import Verif.OAuth.HttpLemmas
import Verif.Py.JsonEncode
import Verif.Jose.DumpLemmas

/-!
# Request parameters can be encoded
-/

namespace Psion

theorem utf8Segs_none {b : Bytes} {l : List (Option Nat)} (h : utf8Segs b = none :: l) :
    ∃ rest, rest.length < b.length ∧ utf8Segs rest = l := by
  rw [utf8Segs.eq_def] at h
  have nil : utf8Segs [] = [] := utf8Segs_nil
  repeat' (split at h)
  all_goals first
    | (cases h; done)
    | (simp only [List.cons.injEq] at h
       first
       | (obtain ⟨h0, rfl⟩ := h; first | (cases h0; done) | exact ⟨_, by simp <;> omega, rfl⟩ | exact ⟨[], by simp, nil⟩))

theorem utf8Segs_scalar (b : Bytes) : ∀ o ∈ utf8Segs b, ∀ c, o = some c → scalar c = true := by
  generalize hn : b.length = n
  induction n using Nat.strongRecOn generalizing b with
  | ind n ih =>
    intro o ho c hc
    match hs : utf8Segs b with
    | [] => rw [hs] at ho; cases ho
    | none :: l =>
      rw [hs] at ho
      obtain ⟨rest, hlt, hr⟩ := utf8Segs_none hs
      rcases List.mem_cons.mp ho with rfl | ho
      · cases hc
      · rw [← hr] at ho
        exact ih rest.length (by omega) rest rfl o ho c hc
    | some d :: l =>
      rw [hs] at ho
      obtain ⟨bc, rest, rfl, hne, henc, hr⟩ := utf8Segs_some hs
      rcases List.mem_cons.mp ho with rfl | ho
      · cases hc
        exact utf8EncodeChar_scalar henc
      · rw [← hr] at ho
        have hpos : 0 < bc.length := List.length_pos_iff.mpr hne
        rw [List.length_append] at hn
        exact ih rest.length (by omega) rest rfl o ho c hc

theorem encodable_decodeReplace (b : Bytes) : Encodable (utf8DecodeReplace b) := by
  intro c hc
  obtain ⟨o, ho, rfl⟩ := List.mem_map.mp hc
  cases o with
  | none => decide
  | some d => exact utf8Segs_scalar b _ ho d rfl

theorem encodable_toStringB (b : Bytes) : Encodable (toStringB b) := by
  unfold toStringB
  split
  · rename_i s hs
    exact utf8Encode_encodable (utf8Encode_decode hs)
  · rename_i hs
    intro c hc
    obtain ⟨d, hd, rfl⟩ := List.mem_map.mp hc
    exact encodable_ascii (s := [d.val]) (by
      intro x hx
      rw [List.mem_singleton.mp hx]
      exact b64url_ascii b d hd) _ List.mem_cons_self

theorem encodable_unquoteLoop (s : PyStr) : ∀ run, Encodable s → Encodable (unquoteLoop run s) := by
  induction s with
  | nil => intro run _; exact encodable_decodeReplace _
  | cons c s ih =>
    intro run hs
    have hs' : Encodable s := fun d hd => hs d (List.mem_cons_of_mem _ hd)
    unfold unquoteLoop
    split
    · exact ih _ hs'
    · refine encodable_append (encodable_decodeReplace _) ?_
      intro d hd
      rcases List.mem_cons.mp hd with rfl | hd
      · exact hs d List.mem_cons_self
      · exact ih [] hs' d hd

theorem encodable_unquotePlus {s : PyStr} (h : Encodable s) : Encodable (unquotePlus s) := by
  refine encodable_unquoteLoop _ _ ?_
  intro c hc
  obtain ⟨d, hd, rfl⟩ := List.mem_map.mp hc
  split
  · decide
  · exact h d hd

theorem mem_splitOn {α : Type} [DecidableEq α] {sep : α} {s p : List α} (h : p ∈ splitOn sep s) : ∀ c ∈ p, c ∈ s := by
  induction s generalizing p with
  | nil => intro c hc; rw [List.mem_singleton.mp h] at hc; exact hc
  | cons a s ih =>
    intro c hc
    unfold splitOn at h
    split at h
    · rcases List.mem_cons.mp h with rfl | h
      · cases hc
      · exact List.mem_cons_of_mem _ (ih h c hc)
    · split at h
      · rw [List.mem_singleton.mp h] at hc
        rw [List.mem_singleton.mp hc]
        exact List.mem_cons_self
      · rename_i q qs hq
        rcases List.mem_cons.mp h with rfl | h
        · rcases List.mem_cons.mp hc with rfl | hc
          · exact List.mem_cons_self
          · exact List.mem_cons_of_mem _ (ih (by rw [hq]; exact List.mem_cons_self) c hc)
        · exact List.mem_cons_of_mem _ (ih (by rw [hq]; exact List.mem_cons_of_mem _ h) c hc)

theorem mem_splitOnce {α : Type} [DecidableEq α] {sep : α} {s a b : List α} (h : splitOnce sep s = some (a, b)) :
    (∀ c ∈ a, c ∈ s) ∧ ∀ c ∈ b, c ∈ s := by
  induction s generalizing a b with
  | nil => cases h
  | cons x s ih =>
    unfold splitOnce at h
    split at h
    · cases h
      exact ⟨by simp, fun c hc => List.mem_cons_of_mem _ hc⟩
    · cases hs : splitOnce sep s with
      | none => rw [hs] at h; cases h
      | some q =>
        rw [hs] at h
        cases h
        obtain ⟨h1, h2⟩ := ih (a := q.1) (b := q.2) hs
        refine ⟨?_, fun c hc => List.mem_cons_of_mem _ (h2 c hc)⟩
        intro c hc
        rcases List.mem_cons.mp hc with rfl | hc
        · exact List.mem_cons_self
        · exact List.mem_cons_of_mem _ (h1 c hc)

theorem encodable_urldecode {q k v : PyStr} (hq : Encodable q) (h : (k, v) ∈ urldecode q) : Encodable k ∧ Encodable v := by
  unfold urldecode Dict.ofPairs at h
  rcases Dict.mem_update h with h | h
  · cases h
  · obtain ⟨nv, hnv, hp⟩ := List.mem_filterMap.mp h
    unfold parsePair at hp
    split at hp
    · cases hp
    · rename_i n w hs
      split at hp
      · cases hp
      · cases hp
        obtain ⟨h1, h2⟩ := mem_splitOnce hs
        exact ⟨encodable_unquotePlus (fun c hc => hq c (mem_splitOn hnv c (h1 c hc))),
          encodable_unquotePlus (fun c hc => hq c (mem_splitOn hnv c (h2 c hc)))⟩

/-- The parameters of a form can always be encoded. -/
theorem encodable_form {r : Request} {k v : PyStr} (h : Dict.get r.form k = some v) : Encodable v := by
  have h := Dict.mem_of_get h
  unfold Request.form at h
  split at h
  · cases h
  · exact (encodable_urldecode (encodable_toStringB _) h).2

/-- The parameters of a request can be encoded if those of the query can. -/
theorem encodable_data {r : Request} (hq : ∀ k v, Dict.get r.query k = some v → Encodable v) {k v : PyStr}
    (h : Dict.get r.data k = some v) : Encodable v := by
  rw [get_data] at h
  cases hf : Dict.get r.form k with
  | some w => rw [hf] at h; cases h; exact encodable_form hf
  | none => rw [hf] at h; exact hq k v h

end Psion
