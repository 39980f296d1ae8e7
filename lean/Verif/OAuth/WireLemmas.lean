import Verif.Spec.Rfc6749
import Verif.Spec.Errors

/-!
# Lemmas about the wire format of RFC 6749
-/

namespace Psion

open Spec

theorem formChar_safe {c : Nat} {w : PyStr} (h : FormChar c w) (hc : FormSafe c) : w = [c] := by
  cases h with
  | safe => rfl
  | either => rfl
  | space => unfold FormSafe Alnum at hc; omega
  | escaped _ _ _ hn => exact absurd hc hn

theorem formText_safe {s t : PyStr} (h : FormText s t) (hs : ∀ c ∈ s, FormSafe c) : t = s := by
  induction h with
  | nil => rfl
  | cons c w s t hc _ ih =>
    rw [formChar_safe hc (hs c List.mem_cons_self), ih (fun x hx => hs x (List.mem_cons_of_mem _ hx))]
    rfl

theorem pctDigit_form {x v : Nat} (h : PctDigit x v) : FormSafe x := by
  unfold PctDigit at h
  unfold FormSafe Alnum
  omega

theorem escapes_chars {b : Bytes} {s : PyStr} (h : Escapes b s) : ∀ c ∈ s, FormSafe c ∨ c = 37 := by
  induction h with
  | nil => nofun
  | cons b x y r s h1 h2 _ ih =>
    intro c hc
    rcases List.mem_cons.mp hc with rfl | hc
    · exact Or.inr rfl
    rcases List.mem_cons.mp hc with rfl | hc
    · exact Or.inl (pctDigit_form h1)
    rcases List.mem_cons.mp hc with rfl | hc
    · exact Or.inl (pctDigit_form h2)
    exact ih c hc

/-- A written text consists of safe characters, `*`, `~`, `+` and `%`. -/
theorem formText_chars {s t : PyStr} (h : FormText s t) : ∀ c ∈ t, FormSafe c ∨ c = 42 ∨ c = 126 ∨ c = 43 ∨ c = 37 := by
  induction h with
  | nil => nofun
  | cons c w s t hc _ ih =>
    intro x hx
    rcases List.mem_append.mp hx with hx | hx
    · cases hc with
      | safe _ h =>
        rw [List.mem_singleton.mp hx]
        exact Or.inl h
      | either _ h =>
        rw [List.mem_singleton.mp hx]
        omega
      | space => exact Or.inr (Or.inr (Or.inr (Or.inl (List.mem_singleton.mp hx))))
      | escaped _ _ _ _ _ he =>
        rcases escapes_chars he x hx with h | h
        · exact Or.inl h
        · omega
    · exact ih x hx

theorem utf8_ne_nil {c : Nat} {b : Bytes} (h : Utf8 c b) : b ≠ [] := by
  cases h <;> simp

theorem formChar_length {c : Nat} {w : PyStr} (h : FormChar c w) : 1 ≤ w.length ∧ (w.length = 1 → w = [c] ∨ w = [43]) := by
  cases h with
  | safe => simp
  | either => simp
  | space => simp
  | escaped _ _ _ _ hu he =>
    cases he with
    | nil => exact absurd rfl (utf8_ne_nil hu)
    | cons => simp

theorem formText_length {s t : PyStr} (h : FormText s t) : s.length ≤ t.length := by
  induction h with
  | nil => exact Nat.le_refl _
  | cons c w s t hc _ ih =>
    have := (formChar_length hc).1
    simp only [List.length_cons, List.length_append]
    omega

/-- A text that is written as itself has only characters that an encoder may leave as they are. -/
theorem formText_self {s : PyStr} (h : FormText s s) : ∀ c ∈ s, FormSafe c ∨ c = 42 ∨ c = 126 := by
  have key : ∀ {s t : PyStr}, FormText s t → s = t → ∀ c ∈ s, FormSafe c ∨ c = 42 ∨ c = 126 := by
    intro s t h
    induction h with
    | nil => intro _; nofun
    | cons c w s t hc hr ih =>
      intro he
      have hl := congrArg List.length he
      have h1 := formChar_length hc
      have h2 := formText_length hr
      simp only [List.length_cons, List.length_append] at hl
      have hw : w.length = 1 := by omega
      obtain ⟨x, rfl⟩ := List.length_eq_one_iff.mp hw
      obtain ⟨rfl, rfl⟩ := List.cons.inj he
      intro y hy
      rcases List.mem_cons.mp hy with rfl | hy
      · cases hc with
        | safe _ h => exact Or.inl h
        | either _ h => exact Or.inr h
        | escaped _ _ _ _ _ he => cases he
      · exact ih rfl y hy
  exact key h rfl

theorem rfc_chars (f : TokenFault) : ∀ c ∈ f.deviates.getD f.rfc, ErrorChar c := by
  unfold ErrorChar
  cases f <;> decide

theorem auth_chars (f : AuthFault) : ∀ c ∈ f.rfc, ErrorChar c := by
  unfold ErrorChar
  cases f <;> decide

end Psion
