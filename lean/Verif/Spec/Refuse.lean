import Verif.Spec.OAuth

/-!
# Vocabulary for the property about refused requests
-/

namespace Psion.Spec

open Psion

/-- The operations that give something: a code, an access token, a refresh token; or take a token away. -/
def Gives : Op → Prop
  | .saveCode .. | .createAccess .. | .createRefresh .. | .revoke .. => True
  | _ => False

/-- None of these operations was attempted. -/
def GaveNothing (tr : List Ev) : Prop := ∀ ev ∈ tr, ¬ Gives ev.op

/-- The application raised an `OAuth2Error` when it was to give something, or afterwards: the adapter while it stores or deletes, or a
hook that extends a successful answer. -/
def GivingFailed (table : Hooks) (tr : List Ev) : Prop :=
  (∃ o x, (Gives o ∨ ∃ v, o = .deleteCode v) ∧ (⟨o, .error (.oauth x)⟩ : Ev) ∈ tr) ∨
    (∃ f ∈ table.authorizationResponse, ∃ code data c u tr' x, tr' ⊆ tr ∧ Exec (f code data c u) tr' (.error (.oauth x))) ∨
    ∃ f ∈ table.tokenResponse, ∃ token data c u tr' x, tr' ⊆ tr ∧ Exec (f token data c u) tr' (.error (.oauth x))

end Psion.Spec
