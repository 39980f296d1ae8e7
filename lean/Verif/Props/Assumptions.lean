import Verif.Props.Float
import Verif.Props.AtHash
import Verif.Props.JoseErrors

/-!
# C129: the assumptions about external operations hold for the real ones
-/

namespace Psion.Props

open Psion Psion.Spec Psion.Real

/-- C129: what the other theorems assume of floats, of digests and of the operations for RSA keys holds for the real ones. -/
theorem C129_assumptions : FloatLaws Real.crypto.fe ∧ HashLengths fipsEnv ∧ Decides Real.crypto ∧ Foreign Real.crypto := by
  refine ⟨floats_laws, ⟨⟨_, rfl, hash_length .sha256⟩, ⟨_, rfl, hash_length .sha384⟩, ⟨_, rfl, hash_length .sha512⟩⟩, ?_, ⟨?_, ?_, ?_, ?_⟩⟩
  · intro n e pad hash msg sig ex h
    cases pad <;> cases h
  · intro n e d x h
    have : Real.recover n e d ≠ .error (.jose x) := by
      unfold Real.recover
      rw [Real.force_eq]
      split
      · rw [Real.force_eq]
        exact fun h => by cases h
      · exact fun h => by cases h
    exact this h
  · intro d p x h
    cases h
  · intro d p x h
    cases h
  · intro d p x h
    cases h

end Psion.Props
