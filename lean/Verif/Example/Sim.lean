import Verif.Example.AdapterLemmas

/-!
# The example application: running a schedule

Used in `example`s and counterexamples: executes several requests against the example adapter in a given order.
-/

namespace Psion.Example

open Psion Spec

/-- Performs, for every entry of the schedule, the next operation of that request (nothing if it is finished). -/
def sim {α : Type} (env : OEnv) : List (Nat × Draw) → Store → (Nat → P α) → List Step × Store × (Nat → P α)
  | [], s, ps => ([], s, ps)
  | (i, d) :: l, s, ps =>
    match ps i with
    | .done _ => sim env l s ps
    | .op o k =>
      ((i, ⟨o, (exOp env d s o).2⟩) ::
          (sim env l (exOp env d s o).1 (fun j => if j = i then k (exOp env d s o).2 else ps j)).1,
        (sim env l (exOp env d s o).1 (fun j => if j = i then k (exOp env d s o).2 else ps j)).2)

theorem sim_run {α : Type} (env : OEnv) (l : List (Nat × Draw)) : ∀ (s : Store) (ps : Nat → P α),
    ExRun env s (sim env l s ps).1 (sim env l s ps).2.1 := by
  induction l with
  | nil => intro s ps; exact .nil s
  | cons x l ih =>
    obtain ⟨i, d⟩ := x
    intro s ps
    unfold sim
    split
    · exact ih s ps
    · rename_i o k _
      exact .step _ _ _ _ _ _ ⟨d, Or.inl rfl⟩ (ih _ _)

/-- What the requests did, and what is left of them. -/
theorem sim_exec {α : Type} (env : OEnv) (l : List (Nat × Draw)) : ∀ (s : Store) (ps : Nat → P α) (i : Nat),
    (∀ tr a, Exec ((sim env l s ps).2.2 i) tr a → Exec (ps i) (ofRequest i (sim env l s ps).1 ++ tr) a) ∧
      Partial (ps i) (ofRequest i (sim env l s ps).1) := by
  induction l with
  | nil => intro s ps i; exact ⟨fun tr a h => h, .here _⟩
  | cons x l ih =>
    obtain ⟨j, d⟩ := x
    intro s ps i
    unfold sim
    split
    · exact ih s ps i
    · rename_i o k hp
      obtain ⟨h1, h2⟩ := ih (exOp env d s o).1 (fun m => if m = j then k (exOp env d s o).2 else ps m) i
      by_cases hj : j = i
      · subst hj
        simp only [if_true] at h1 h2
        rw [hp]
        simp only [ofRequest, List.filterMap_cons, if_true]
        exact ⟨fun tr a h => .op o k _ _ _ (h1 tr a h), .op o k _ _ h2⟩
      · simp only [Ne.symm hj, if_false] at h1 h2
        simp only [ofRequest, List.filterMap_cons, hj, if_false]
        exact ⟨h1, h2⟩

/-- The program of a call to one of the endpoints that return a response. -/
def callProg (env : OEnv) (table : Hooks) : Call → P Response
  | .authorize p req => p.authorize env table req
  | .token p req => p.token env table req
  | .revoke _ _ | .consent _ _ => .done (.error (.py .attrErr))

/-- Calls of the endpoints that return a response. -/
def Call.plain : Call → Bool
  | .authorize .. | .token .. => true
  | _ => false

theorem sim_history (env : OEnv) (table : Hooks) (calls : Nat → Call) (l : List (Nat × Draw)) (s : Store)
    (hp : ∀ i, Call.plain (calls i) = true) :
    History env table calls (sim env l s (fun i => callProg env table (calls i))).1 := by
  intro i
  have h := (sim_exec env l s (fun i => callProg env table (calls i)) i).2
  have hpi := hp i
  cases hc : calls i with
  | authorize p req => rw [hc] at h; exact h
  | token p req => rw [hc] at h; exact h
  | consent p req => rw [hc] at hpi; cases hpi
  | revoke p req => rw [hc] at hpi; cases hpi

/-- The outcome of a request, if it is finished. -/
def outcome {α : Type} : P α → Option (ORes α)
  | .done r => some r
  | .op _ _ => none

theorem sim_outcome {α : Type} {env : OEnv} {l : List (Nat × Draw)} {s : Store} {ps : Nat → P α} {i : Nat} {r : ORes α}
    (h : outcome ((sim env l s ps).2.2 i) = some r) : Exec (ps i) (ofRequest i (sim env l s ps).1) r := by
  have h1 := (sim_exec env l s ps i).1 [] r
  rw [List.append_nil] at h1
  apply h1
  unfold outcome at h
  split at h
  · cases h; rename_i hd; rw [hd]; exact .done r
  · cases h

end Psion.Example
