import Verif.OAuth.Http

/-!
# The headers of an answer
-/

namespace Psion.Spec

open Psion

/-- The answer has exactly these headers, each of them once. -/
def Carries (r : Response) (l : List (PyStr × PyStr)) : Prop :=
  (r.headers.map Prod.fst).Nodup ∧ ∀ k v, (k, v) ∈ r.headers ↔ ∃ s, v = some s ∧ (k, s) ∈ l

/-- The headers that RFC 6749, section 5.1, asks for in an answer with tokens. -/
def tokenHeaders : List (PyStr × PyStr) :=
  [(py! "Content-Type", py! "application/json"), (py! "Cache-Control", py! "no-store"), (py! "Pragma", py! "no-cache")]

/-- The challenge of RFC 6749, section 5.2, and RFC 7617. -/
def challengeHeader : PyStr × PyStr := (py! "WWW-Authenticate", py! "Basic")

end Psion.Spec
