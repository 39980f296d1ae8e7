import Verif.Spec.Form
import Verif.Py.UrlLemmas

/-!
# URLs that are refused
-/

namespace Psion

open Spec

theorem schemeChar_iff {c : Nat} : schemeChar c = true ↔
    (65 ≤ c ∧ c ≤ 90) ∨ (97 ≤ c ∧ c ≤ 122) ∨ (48 ≤ c ∧ c ≤ 57) ∨ c = 43 ∨ c = 45 ∨ c = 46 := by
  simp [schemeChar, or_assoc]

theorem dropUnsafe_filter (s : PyStr) : s.filter (fun c => decide (c ≠ 9 ∧ c ≠ 10 ∧ c ≠ 13)) = dropUnsafe s := by
  unfold dropUnsafe
  congr 1
  funext c
  by_cases h1 : c = 9
  · simp [h1]
  · by_cases h2 : c = 10
    · simp [h2]
    · by_cases h3 : c = 13
      · simp [h3]
      · simp [h1, h2, h3]

/-- The end of the host. -/
def hostChar (c : Nat) : Bool := !(c == 47 || c == 63 || c == 35)

theorem hostChar_iff {c : Nat} : hostChar c = true ↔ c ≠ 47 ∧ c ≠ 63 ∧ c ≠ 35 := by
  simp [hostChar, and_assoc]

theorem takeWhile_host {host rest : PyStr} (hh : ∀ c ∈ host, c ≠ 47 ∧ c ≠ 63 ∧ c ≠ 35)
    (hr : rest = [] ∨ ∃ c t, rest = c :: t ∧ (c = 47 ∨ c = 63 ∨ c = 35)) : (host ++ rest).takeWhile hostChar = host := by
  rw [List.takeWhile_append_of_pos (fun c hc => hostChar_iff.mpr (hh c hc))]
  rcases hr with rfl | ⟨c, t, rfl, hc⟩
  · simp
  · have : hostChar c = false := by
      rcases hc with h | h | h <;> subst h <;> rfl
    simp [this]

theorem host_takeWhile (t : PyStr) : ∃ rest, t = t.takeWhile hostChar ++ rest ∧
    (∀ c ∈ t.takeWhile hostChar, c ≠ 47 ∧ c ≠ 63 ∧ c ≠ 35) ∧
    (rest = [] ∨ ∃ c t, rest = c :: t ∧ (c = 47 ∨ c = 63 ∨ c = 35)) := by
  induction t with
  | nil => exact ⟨[], by simp⟩
  | cons c t ih =>
    obtain ⟨rest, h1, h2, h3⟩ := ih
    rw [List.takeWhile_cons]
    cases hc : hostChar c with
    | true =>
      refine ⟨rest, ?_, ?_, h3⟩
      · simp only [if_true, List.cons_append]
        rw [← h1]
      · intro x hx
        rcases List.mem_cons.mp hx with rfl | hx
        · exact hostChar_iff.mp hc
        · exact h2 x hx
    | false =>
      refine ⟨c :: t, by simp, by simp, Or.inr ⟨c, t, rfl, ?_⟩⟩
      have : ¬ (c ≠ 47 ∧ c ≠ 63 ∧ c ≠ 35) := fun h => by
        rw [hostChar_iff.mpr h] at hc
        cases hc
      omega

/-- The URL behind its scheme. -/
def afterScheme (u : PyStr) : PyStr :=
  match splitOnce 58 u with | some (s, r) => if s ≠ [] ∧ s.all schemeChar then r else u | none => u

theorem afterScheme_iff {u t : PyStr} : afterScheme u = 47 :: t ↔
    ∃ scheme, u = scheme ++ 47 :: t ∧ (scheme = [] ∨ ∃ name, scheme = name ++ [58] ∧ name ≠ [] ∧
      ∀ c ∈ name, (65 ≤ c ∧ c ≤ 90) ∨ (97 ≤ c ∧ c ≤ 122) ∨ (48 ≤ c ∧ c ≤ 57) ∨ c = 43 ∨ c = 45 ∨ c = 46) := by
  unfold afterScheme
  constructor
  · intro h
    split at h
    · rename_i s r hs
      split at h
      · rename_i hc
        subst h
        refine ⟨s ++ [58], ?_, Or.inr ⟨s, rfl, hc.1, ?_⟩⟩
        · rw [(splitOnce_some hs).1]; simp
        · intro c hm
          exact schemeChar_iff.mp (List.all_eq_true.mp hc.2 c hm)
      · exact ⟨[], h, Or.inl rfl⟩
    · exact ⟨[], h, Or.inl rfl⟩
  · rintro ⟨scheme, rfl, rfl | ⟨name, rfl, hne, hname⟩⟩
    · split
      · rename_i s r hs
        split
        · rename_i hc
          exfalso
          obtain ⟨h1, -⟩ := splitOnce_some hs
          cases s with
          | nil => exact hc.1 rfl
          | cons a s =>
            cases h1
            exact absurd (List.all_eq_true.mp hc.2 47 List.mem_cons_self) (by decide)
        · rfl
      · rfl
    · have hs : splitOnce 58 (name ++ [58] ++ 47 :: t) = some (name, 47 :: t) := by
        rw [List.append_assoc]
        refine splitOnce_append fun hm => ?_
        have := hname 58 hm
        omega
      rw [hs]
      dsimp only
      rw [if_pos ⟨hne, List.all_eq_true.mpr fun c hc => schemeChar_iff.mpr (hname c hc)⟩]

theorem hostOf_iff {url host : PyStr} : HostOf url host ↔
    ∃ t, afterScheme (dropUnsafe url) = 47 :: 47 :: t ∧ t.takeWhile hostChar = host := by
  unfold HostOf
  rw [dropUnsafe_filter]
  constructor
  · rintro ⟨scheme, rest, h1, h2, h3, h4⟩
    exact ⟨host ++ rest, afterScheme_iff.mpr ⟨scheme, by rw [h1]; simp, h2⟩, takeWhile_host h3 h4⟩
  · rintro ⟨t, h1, rfl⟩
    obtain ⟨scheme, h2, h3⟩ := afterScheme_iff.mp h1
    obtain ⟨rest, h4, h5, h6⟩ := host_takeWhile t
    refine ⟨scheme, rest, ?_, h3, h5, h6⟩
    rw [h2]
    conv => lhs; rw [h4]
    simp

/-- Exactly the URLs with one bracket in the host are refused. -/
theorem urlRefused_iff {url : PyStr} : urlRefused url = true ↔ OneBracket url := by
  have hn : urlNetloc url = match afterScheme (dropUnsafe url) with
    | 47 :: 47 :: t => t.takeWhile hostChar
    | _ => [] := rfl
  unfold urlRefused OneBracket
  rw [hn]
  constructor
  · intro h
    split at h
    · rename_i t ht
      refine ⟨t.takeWhile hostChar, hostOf_iff.mpr ⟨t, ht, rfl⟩, ?_⟩
      intro hiff
      simp only [bne_iff_ne, ne_eq] at h
      apply h
      rw [Bool.eq_iff_iff, List.contains_iff_mem, List.contains_iff_mem]
      exact hiff
    · cases h
  · rintro ⟨host, hh, hno⟩
    obtain ⟨t, h1, rfl⟩ := hostOf_iff.mp hh
    rw [h1]
    simp only [bne_iff_ne, ne_eq]
    intro he
    apply hno
    rw [Bool.eq_iff_iff, List.contains_iff_mem, List.contains_iff_mem] at he
    exact he

end Psion
