import Verif.Py.Webtools
import Verif.Py.UrlLemmas
import Verif.Py.JsonLemmas
import Verif.Py.IntB64Lemmas

/-! Helper lemmas about authorization headers. -/

namespace Psion

theorem takeWhile_append_stop {α : Type} {p : α → Bool} {w : List α} {c : α} {r : List α}
    (hw : ∀ x ∈ w, p x = true) (hc : p c = false) :
    (w ++ c :: r).takeWhile p = w ∧ (w ++ c :: r).dropWhile p = c :: r := by
  induction w with
  | nil => simp [hc]
  | cons x w ih =>
    have hx := hw x List.mem_cons_self
    have ih := ih (fun y hy => hw y (List.mem_cons_of_mem _ hy))
    simp [hx, ih.1, ih.2]

theorem dropWhile_all {α : Type} {p : α → Bool} {w : List α} (hw : ∀ x ∈ w, p x = true) :
    w.dropWhile p = [] ∧ w.takeWhile p = w := by
  induction w with
  | nil => simp
  | cons x w ih =>
    have hx := hw x List.mem_cons_self
    have ih := ih (fun y hy => hw y (List.mem_cons_of_mem _ hy))
    simp [hx, ih.1, ih.2]

/-- One word, a space, and a rest that does not start with white space. -/
theorem splitNone1_two {w : PyStr} {c : Nat} {r : PyStr} (hw : w ≠ [])
    (hws : ∀ x ∈ w, isPySpace x = false) (hc : isPySpace c = false) :
    splitNone1 (w ++ 32 :: c :: r) = [w, c :: r] := by
  obtain ⟨a, t, rfl⟩ := List.exists_cons_of_ne_nil hw
  have ha := hws a List.mem_cons_self
  have h1 : ((a :: t) ++ 32 :: c :: r).dropWhile isPySpace = (a :: t) ++ 32 :: c :: r := by
    simp [ha]
  have h2 := takeWhile_append_stop (p := fun x => !isPySpace x) (w := a :: t) (c := 32)
    (r := c :: r) (fun x hx => by simp [hws x hx]) (by decide)
  unfold splitNone1
  rw [h1]
  simp only [h2.1, h2.2]
  rw [if_neg (by simp)]
  have h3 : (32 :: c :: r).dropWhile isPySpace = c :: r := by
    rw [List.dropWhile_cons, if_pos (by decide), List.dropWhile_cons, if_neg (by simp [hc])]
  rw [h3, if_neg (by simp)]

/-- Standard (padded) base64 output characters. -/
theorem b2a_chars (d : Bytes) : ∀ c ∈ b2a d, c.val < 128 ∧ isPySpace c.val = false := by
  have hch : ∀ n, n < 64 → (b64Char n).val < 128 ∧ isPySpace (b64Char n).val = false := by
    intro n hn
    have hv := b64Char_val hn
    have : ∀ m : Nat, 43 ≤ m → m ≤ 122 → m < 128 ∧ isPySpace m = false := by
      intro m h1 h2
      refine ⟨by omega, ?_⟩
      simp only [isPySpace, Bool.or_eq_false_iff, Bool.and_eq_false_iff, decide_eq_false_iff_not,
        beq_eq_false_iff_ne]
      omega
    apply this
    · rw [hv]; repeat' split
      all_goals omega
    · rw [hv]; repeat' split
      all_goals omega
  induction d using b2a.induct with
  | case1 => simp [b2a]
  | case2 a =>
    have ha := a.isLt
    simp only [b2a, List.mem_cons, List.not_mem_nil, or_false]
    rintro c (rfl | rfl | rfl | rfl)
    · exact hch _ (by omega)
    · exact hch _ (by omega)
    · decide
    · decide
  | case3 a b =>
    have ha := a.isLt; have hb := b.isLt
    simp only [b2a, List.mem_cons, List.not_mem_nil, or_false]
    rintro c (rfl | rfl | rfl | rfl)
    · exact hch _ (by omega)
    · exact hch _ (by omega)
    · exact hch _ (by omega)
    · decide
  | case4 a b c rest ih =>
    have ha := a.isLt; have hb := b.isLt; have hc := c.isLt
    simp only [b2a, List.mem_cons]
    rintro x (rfl | rfl | rfl | rfl | hx)
    · exact hch _ (by omega)
    · exact hch _ (by omega)
    · exact hch _ (by omega)
    · exact hch _ (by omega)
    · exact ih x hx

theorem b2a_ne_nil {d : Bytes} (h : d ≠ []) : b2a d ≠ [] := by
  match d with
  | [] => exact absurd rfl h
  | [_] => simp [b2a]
  | [_, _] => simp [b2a]
  | _ :: _ :: _ :: _ => simp [b2a]

theorem b64decodeStr_b2a (d : Bytes) : b64decodeStr (asciiStr (b2a d)) = .ok d := by
  unfold b64decodeStr
  rw [if_pos]
  · have : (asciiStr (b2a d)).map byte = b2a d := by simp [asciiStr, Function.comp_def]
    rw [this]; exact a2b_b2a d 0 0
  · simp only [asciiStr, List.all_map, List.all_eq_true, Function.comp]
    intro c hc; simpa using (b2a_chars d c hc).1

theorem a2bLoop_error {q l p : Nat} {d : Bytes} {e : Exc} (h : a2bLoop q l p d = .error e) :
    e = .binascii := by
  induction d generalizing q l p with
  | nil =>
    unfold a2bLoop at h
    split at h
    · cases h
    · cases h; rfl
  | cons c d ih =>
    unfold a2bLoop at h
    have key : ∀ {q l p : Nat} {f : Bytes → Bytes},
        (a2bLoop q l p d).map f = .error e → e = .binascii := by
      intro q l p f hh
      cases hr : a2bLoop q l p d with
      | ok r => rw [hr] at hh; cases hh
      | error e' => rw [hr] at hh; cases hh; exact ih hr
    repeat' split at h
    all_goals first
      | exact ih h
      | exact key h
      | cases h

end Psion
