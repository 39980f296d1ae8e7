import Verif.Spec.Stack

/-!
# Vocabulary for the property about the lifetimes of codes and tokens
-/

namespace Psion.Spec

open Psion Example

/-- A history between two states of the database that shows what was drawn for every operation, among that the time. Operations may
fail, and administration may take place in between. -/
inductive Timed (env : OEnv) : WStore → List (Draw × WStep) → WStore → Prop
  | nil (w : WStore) : Timed env w [] w
  | step (w w' w'' : WStore) (d : Draw) (i : Nat) (ev : WEv) (l : List (Draw × WStep)) :
      wOp env d w ev.op = (w', ev.ans) → Timed env w' l w'' → Timed env w ((d, i, ev) :: l) w''
  | failed (w w' w'' : WStore) (d : Draw) (i : Nat) (ev : WEv) (n : Nat) (l : List (Draw × WStep)) :
      ev.ans = .error (.py (.ext n)) → (w' = w ∨ w' = (wOp env d w ev.op).1) → Timed env w' l w'' →
      Timed env w ((d, i, ev) :: l) w''
  | outside (w w' w'' : WStore) (l : List (Draw × WStep)) : WOutside w w' → Timed env w' l w'' → Timed env w l w''

/-- So many seconds, in the microseconds of the clock. -/
def seconds (n : Int) : Int := n * 1000000

/-- The request number `i` has read this time. -/
def ClockShown (h : List (Draw × WStep)) (i : Nat) (now : Int) : Prop :=
  ∃ d, (d, i, (⟨.lib .now, .ok now⟩ : WEv)) ∈ h

/-- The code was stored at this time, for this client and this user. -/
def CodeMadeAt (h : List (Draw × WStep)) (code clientId userId : PyStr) (t : Int) : Prop :=
  ∃ d j data c u ans, (d, j, (⟨.lib (.saveCode code data c u), ans⟩ : WEv)) ∈ h ∧ d.now = t ∧ c.clientId = clientId ∧
    u.userId = userId

/-- The refresh token was made at this time, for this client and this user. -/
def RefreshMadeAt (h : List (Draw × WStep)) (token clientId userId : PyStr) (t : Int) : Prop :=
  ∃ d j c u scopes ans, (d, j, (⟨.lib (.createRefresh c (some u) scopes), ans⟩ : WEv)) ∈ h ∧ d.now = t ∧
    (ans = .ok token ∨ ∃ n, ans = .error (.py (.ext n))) ∧ c.clientId = clientId ∧ u.userId = userId

/-- RFC 6749, section 4.1.2: "A maximum authorization code lifetime of 10 minutes is RECOMMENDED." -/
def codeMaximum : Int := seconds 600

end Psion.Spec
