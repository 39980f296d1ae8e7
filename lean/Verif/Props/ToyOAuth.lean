import Verif.Props.Toy
import Verif.OAuth.HttpLemmas

/-!
# A concrete environment for the OAuth half

Used in `example`s and counterexamples only.
-/

namespace Psion.Props

open Psion

/-- Keeps the last occurrence of every element. -/
def toyDedup : List PyStr → List PyStr
  | [] => []
  | a :: l => if a ∈ l then toyDedup l else a :: toyDedup l

theorem mem_toyDedup (l : List PyStr) (x : PyStr) : x ∈ toyDedup l ↔ x ∈ l := by
  induction l with
  | nil => simp [toyDedup]
  | cons a l ih =>
    unfold toyDedup
    split
    · rename_i h
      rw [ih, List.mem_cons]
      exact ⟨Or.inr, fun h' => h'.elim (fun e => e ▸ h) id⟩
    · simp [ih]

theorem nodup_toyDedup (l : List PyStr) : (toyDedup l).Nodup := by
  induction l with
  | nil => simp [toyDedup]
  | cons a l ih =>
    unfold toyDedup
    split
    · exact ih
    · rename_i h
      rw [List.nodup_cons, mem_toyDedup]
      exact ⟨h, ih⟩

/-- A toy environment; the "hash" keeps the first 32 bytes. -/
def toyEnv : OEnv where
  cr := toyCrypto
  he := toyHash
  sha256 b := (b ++ List.replicate 32 0).take 32
  strOf _ := py! "?"
  bytesOf _ := .error .typeErr
  inter a b := (toyDedup a).filter (fun x => decide (x ∈ b))
  inter_mem a b x := by simp [mem_toyDedup]
  inter_nodup a b := (nodup_toyDedup a).filter _

end Psion.Props
