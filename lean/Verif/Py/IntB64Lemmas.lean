import Verif.Py.IntB64
import Verif.Py.Base64Lemmas
import Verif.Py.Utf8Lemmas

/-! Helper lemmas about the integer codec. -/

namespace Psion

theorem ofBE_snoc (b : Bytes) (x : Byte) : ofBE (b ++ [x]) = ofBE b * 256 + x.val := by
  simp [ofBE]

theorem ofBE_toBE (len n : Nat) (h : n < 256 ^ len) : ofBE (toBE len n) = n := by
  induction len generalizing n with
  | zero => simp at h; subst h; rfl
  | succ len ih =>
    rw [toBE, ofBE_snoc, ih (n / 256) (by rw [Nat.div_lt_iff_lt_mul (by decide)]; rwa [Nat.pow_succ] at h)]
    simp only [byte_val]; omega

theorem lt_two_pow_bitLength (n : Nat) : n < 2 ^ bitLength n := by
  unfold bitLength
  split
  · subst_vars; decide
  · exact Nat.lt_log2_self

theorem lt_256_pow (n : Nat) : n < 256 ^ ((bitLength n + 7) / 8) := by
  calc n < 2 ^ bitLength n := lt_two_pow_bitLength n
    _ ≤ 2 ^ (8 * ((bitLength n + 7) / 8)) := Nat.pow_le_pow_right (by decide) (by omega)
    _ = (2 ^ 8) ^ ((bitLength n + 7) / 8) := by rw [Nat.pow_mul]
    _ = 256 ^ ((bitLength n + 7) / 8) := by rfl

theorem toBE_length (len n : Nat) : (toBE len n).length = len := by
  induction len generalizing n with
  | zero => rfl
  | succ len ih => simp [toBE, ih]

theorem bitLength_pos {n : Nat} (h : 0 < n) : 0 < bitLength n := by
  unfold bitLength; rw [if_neg (by omega)]; omega

theorem toBytesAscii_ascii {b : Bytes} (h : ∀ c ∈ b, c.val < 128) :
    toBytesAscii (asciiStr b) = .ok b := by
  unfold toBytesAscii
  rw [if_pos]
  · simp [asciiStr, Function.comp_def]
  · simp only [asciiStr, List.all_map, List.all_eq_true, Function.comp]
    intro c hc; simpa using h c hc

theorem b64ToInt_intToB64 {n : Nat} (hn : 0 < n) :
    ∃ b, intToB64 n = .ok b ∧ b64ToInt (asciiStr b) = .ok n := by
  refine ⟨b64urlEncode (toBE ((bitLength n + 7) / 8) n), by simp [intToB64], ?_⟩
  unfold b64ToInt
  rw [toBytesAscii_ascii (fun c hc => (b64urlEncode_alphabet _ c hc).ascii)]
  simp only [b64_roundtrip]
  rw [if_neg, ofBE_toBE _ _ (lt_256_pow n)]
  intro h
  have := congrArg List.length h
  rw [toBE_length] at this
  have := bitLength_pos hn
  simp at *
  omega

end Psion
