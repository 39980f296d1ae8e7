import Verif.Example.WebLemmas
import Verif.Example.Sim

/-!
# The web layer of the example application: running a schedule

Used in `example`s and counterexamples.
-/

namespace Psion.Example

open Psion Spec

/-- Performs, for every entry of the schedule, the next operation of that request (nothing if it is finished). -/
def wsim {α : Type} (env : OEnv) : List (Nat × Draw) → WStore → (Nat → WProg α) → List WStep × WStore × (Nat → WProg α)
  | [], s, ps => ([], s, ps)
  | (i, d) :: l, s, ps =>
    match ps i with
    | .done _ => wsim env l s ps
    | .op o k =>
      ((i, ⟨o, (wOp env d s o).2⟩) ::
          (wsim env l (wOp env d s o).1 (fun j => if j = i then k (wOp env d s o).2 else ps j)).1,
        (wsim env l (wOp env d s o).1 (fun j => if j = i then k (wOp env d s o).2 else ps j)).2)

theorem wsim_run {α : Type} (env : OEnv) (l : List (Nat × Draw)) : ∀ (s : WStore) (ps : Nat → WProg α),
    WRun env s (wsim env l s ps).1 (wsim env l s ps).2.1 := by
  induction l with
  | nil => intro s ps; exact .nil s
  | cons x l ih =>
    obtain ⟨i, d⟩ := x
    intro s ps
    unfold wsim
    split
    · exact ih s ps
    · rename_i o k _
      exact .step _ _ _ _ _ _ ⟨d, Or.inl rfl⟩ (ih _ _)

/-- What the requests did, and what is left of them. -/
theorem wsim_exec {α : Type} (env : OEnv) (l : List (Nat × Draw)) : ∀ (s : WStore) (ps : Nat → WProg α) (i : Nat),
    (∀ tr a, WExec ((wsim env l s ps).2.2 i) tr a → WExec (ps i) (ofWeb i (wsim env l s ps).1 ++ tr) a) ∧
      WPartial (ps i) (ofWeb i (wsim env l s ps).1) := by
  induction l with
  | nil => intro s ps i; exact ⟨fun tr a h => h, .here _⟩
  | cons x l ih =>
    obtain ⟨j, d⟩ := x
    intro s ps i
    unfold wsim
    split
    · exact ih s ps i
    · rename_i o k hp
      obtain ⟨h1, h2⟩ := ih (wOp env d s o).1 (fun m => if m = j then k (wOp env d s o).2 else ps m) i
      by_cases hj : j = i
      · subst hj
        simp only [if_true] at h1 h2
        rw [hp]
        simp only [ofWeb, List.filterMap_cons, if_true]
        exact ⟨fun tr a h => .op o k _ _ _ (h1 tr a h), .op o k _ _ h2⟩
      · simp only [Ne.symm hj, if_false] at h1 h2
        simp only [ofWeb, List.filterMap_cons, hj, if_false]
        exact ⟨h1, h2⟩

/-- The outcome of a request, if it is finished. -/
def woutcome {α : Type} : WProg α → Option α
  | .done r => some r
  | .op _ _ => none

theorem wsim_outcome {α : Type} {env : OEnv} {l : List (Nat × Draw)} {s : WStore} {ps : Nat → WProg α} {i : Nat} {r : α}
    (h : woutcome ((wsim env l s ps).2.2 i) = some r) : WExec (ps i) (ofWeb i (wsim env l s ps).1) r := by
  have h1 := (wsim_exec env l s ps i).1 [] r
  rw [List.append_nil] at h1
  apply h1
  unfold woutcome at h
  split at h
  · cases h; rename_i hd; rw [hd]; exact .done r
  · cases h

end Psion.Example
