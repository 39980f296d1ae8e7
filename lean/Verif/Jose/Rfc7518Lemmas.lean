import Verif.Spec.Rfc7518
import Verif.Jose.DumpLemmas

/-!
# Lemmas about the encodings of ECDSA signatures and of the numbers of keys
-/

namespace Psion

open Psion.Spec

theorem octets_length (len n : Nat) : (octets len n).length = len := by
  induction len generalizing n with
  | zero => rfl
  | succ l ih => simp [octets, ih]

theorem octets_head (len n : Nat) (h : n < 256 ^ (len + 1)) : ∃ rest, octets (len + 1) n = byte (n / 256 ^ len) :: rest := by
  induction len generalizing n with
  | zero => exact ⟨[], by simp [octets]⟩
  | succ l ih =>
    obtain ⟨rest, hr⟩ := ih (n / 256) (Nat.div_lt_of_lt_mul (by rw [Nat.pow_succ] at h; omega))
    refine ⟨rest ++ [byte n], ?_⟩
    conv => lhs; unfold octets
    rw [hr, Nat.div_div_eq_div_mul, ← Nat.pow_succ', List.cons_append]

theorem derLength_pos (n : Nat) : 1 ≤ (derLength n).length := by
  unfold derLength
  split <;> simp

theorem derNumber_length (n : Nat) : 3 + bits n / 8 ≤ (derNumber n).length := by
  unfold derNumber
  have := derLength_pos (bits n / 8 + 1)
  simp only [List.length_append, List.length_singleton, octets_length]
  omega

theorem derSig_length (r s : Nat) : 8 + bits r / 8 + bits s / 8 ≤ (derSig r s).length := by
  have h1 := derNumber_length r
  have h2 := derNumber_length s
  have h3 := derLength_pos (derNumber r ++ derNumber s).length
  unfold derSig
  simp only [List.length_append, List.length_singleton] at *
  omega

theorem bits_ge {n k : Nat} (h : 256 ^ k ≤ n) : k ≤ bits n / 8 := by
  have hp : 0 < 256 ^ k := Nat.pow_pos (by decide)
  have hn : n ≠ 0 := by omega
  have h' : 2 ^ (8 * k) ≤ n := by rw [Nat.pow_mul]; exact h
  have := (Nat.le_log2 hn).mpr h'
  unfold bits
  rw [if_neg hn]
  omega

theorem derSig_first (r s : Nat) : (derSig r s).head? = some 48 := rfl

theorem octets_eq (len n : Nat) : octets len n = toBE len n := by
  induction len generalizing n with
  | zero => rfl
  | succ l ih => simp [octets, toBE, ih]

theorem numVal_eq (n : Nat) : numVal n = octetText ((bits n + 7) / 8) n := by
  unfold numVal octetText asciiStr
  rw [octets_eq]
  rfl

theorem octetText_inj {k l n : Nat} (h : octetText k n = octetText l n) : k = l := by
  have h := List.map_inj_right (fun _ _ e => Fin.val_inj.mp e) |>.mp (Val.str.inj h)
  have := congrArg List.length (b64urlEncode_injective h)
  rwa [octets_length, octets_length] at this

theorem numVal_octetText {n len : Nat} : numVal n = octetText len n ↔ (bits n + 7) / 8 = len := by
  rw [numVal_eq]
  exact ⟨octetText_inj, fun h => by rw [h]⟩

/-- The members of a dump that are numbers. -/
theorem dump_number {m : Material} {pub : Bool} {md : Dict PyStr Val} (h : m.dump pub = .ok md) {k : PyStr} {n : Nat}
    (hn : numberOf (if pub then publicPart m else m) k = some n) : Dict.get md k = some (numVal n) ∧ k ∈ m.kty.allowed := by
  cases m with
  | oct s => cases pub <;> simp [numberOf, publicPart] at hn
  | ec c x y o =>
    cases pub with
    | true =>
      cases h
      simp only [publicPart, numberOf, if_true] at hn
      repeat' split at hn
      all_goals (try cases hn)
      all_goals (subst_vars; exact ⟨rfl, by simp [Material.kty, Kty.allowed]⟩)
    | false =>
      cases o with
      | none => cases h
      | some d =>
        cases h
        simp only [numberOf, Bool.false_eq_true, if_false] at hn
        repeat' split at hn
        all_goals (try cases hn)
        all_goals (subst_vars; exact ⟨rfl, by simp [Material.kty, Kty.allowed]⟩)
  | rsa a e o =>
    cases pub with
    | true =>
      cases h
      simp only [publicPart, numberOf, if_true, Option.map_none] at hn
      repeat' split at hn
      all_goals (try cases hn)
      all_goals (subst_vars; exact ⟨rfl, by simp [Material.kty, Kty.allowed]⟩)
    | false =>
      cases o with
      | none => cases h
      | some d =>
        cases h
        simp only [numberOf, Bool.false_eq_true, if_false, Option.map_some] at hn
        repeat' split at hn
        all_goals (try cases hn)
        all_goals (subst_vars; exact ⟨rfl, by simp [Material.kty, Kty.allowed]⟩)

theorem b64ToIntV_octetText {len n : Nat} (hl : 0 < len) (hn : n < 256 ^ len) : b64ToIntV (octetText len n) = .ok (some n) := by
  unfold b64ToIntV octetText
  simp only
  have : b64ToInt (asciiStr (b64urlEncode (octets len n))) = .ok n := by
    unfold b64ToInt
    rw [toBytesAscii_ascii (fun c hc => (b64urlEncode_alphabet _ c hc).ascii)]
    simp only [b64_roundtrip]
    rw [if_neg, octets_eq, ofBE_toBE _ _ hn]
    intro h
    have := congrArg List.length h
    rw [octets_length] at this
    simp at this
    omega
  unfold asciiStr at this
  rw [this]

theorem octetText_truthy {len n : Nat} (hl : 0 < len) (hn : n < 256 ^ len) : (octetText len n).truthy = true := by
  have h := b64ToIntV_octetText hl hn
  unfold octetText at h ⊢
  generalize List.map _ _ = s at h ⊢
  cases s with
  | nil =>
    have : b64ToIntV (.str []) = .error .valueErr := by decide +kernel
    rw [this] at h; cases h
  | cons => rfl

end Psion
