import Verif.Spec.Lasting

/-!
# Vocabulary for the second use of a code
-/

namespace Psion.Spec

open Psion Example

/-- A proper request to the token endpoint that presents the code. -/
structure PresentsCode (req : WebRequest) (code : PyStr) : Prop extends TokenCall req where
  proper : Proper req
  type : ∀ r, ArrivesAs req none r → Dict.get r.data (py! "grant_type") = some (py! "authorization_code")
  code : ∀ r, ArrivesAs req none r → Dict.get r.data (py! "code") = some code

/-- No authorization draws the code once more. -/
def NotDrawnAgain (h : List WStep) (code : PyStr) : Prop :=
  ∀ i data c u ans, (i, (⟨.lib (.saveCode code data c u), ans⟩ : WEv)) ∉ h

end Psion.Spec
