import Verif.Spec.Lasting

/-!
# Vocabulary for requests that are processed at the same time
-/

namespace Psion.Spec

open Psion Example

/-- A history of requests in any interleaving, with what was drawn for the operations. The operations of the request number `i` are
performed without failure, and what is drawn for them is new. Those of the other requests may fail, before or after their effect. -/
inductive Busy (env : OEnv) (i : Nat) : WStore → List (Draw × WStep) → WStore → Prop
  | nil (w : WStore) : Busy env i w [] w
  | own (w w' w'' : WStore) (d : Draw) (ev : WEv) (l : List (Draw × WStep)) :
      wOp env d w ev.op = (w', ev.ans) → NewWeb w d ev.op → Busy env i w' l w'' → Busy env i w ((d, i, ev) :: l) w''
  | other (w w' w'' : WStore) (d : Draw) (j : Nat) (ev : WEv) (l : List (Draw × WStep)) :
      j ≠ i → WEffect env w ev w' → Busy env i w' l w'' → Busy env i w ((d, j, ev) :: l) w''

/-- The request number `i` ends with this outcome, while others are processed: each of them as far as it gets, and at any time before,
during and after the request. Nobody administers the database, no authorization is asked for blank scopes only, and the request takes
less than an hour. -/
structure Amid (env : OEnv) (emailOk : PyStr → Bool) (w w' : WStore) (reqs : Nat → WebRequest) (i : Nat) (l : List (Draw × WStep))
    (out : ORes Served) : Prop where
  history : WHistory env (exHooks env) emailOk reqs (stepsOf l)
  run : Busy env i w l w'
  tame : ∀ j, Tame (reqs j)
  prompt : PromptFor i l
  runs : WExec (app env (exHooks env) emailOk (reqs i)) (ofWeb i (stepsOf l)) out

/-- No other client request presents the code. -/
def NobodyElsePresents (reqs : Nat → WebRequest) (i : Nat) (h : List WStep) (code : PyStr) : Prop :=
  ∀ pre j ev post q id, h = pre ++ (j, ev) :: post → j ≠ i → (reqs j).route = .token → ClientSent reqs pre j q id →
    Dict.get q.data (py! "code") ≠ some code

/-- This is true of the database at some moment of the history. -/
def AtSomeMoment (env : OEnv) (i : Nat) (w : WStore) (l : List (Draw × WStep)) (w' : WStore) (p : WStore → Prop) : Prop :=
  ∃ pre post m, l = pre ++ post ∧ Busy env i w pre m ∧ Busy env i m post w' ∧ p m

end Psion.Spec
