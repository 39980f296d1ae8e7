import Verif.Spec.Bits

/-!
Helper lemmas about bits.
-/

namespace Psion.Real

open Psion Spec

theorem bitsOf_length (n x : Nat) : (bitsOf n x).length = n := by simp [bitsOf]

theorem bitsOf_succ (n x : Nat) : bitsOf (n + 1) x = bitsOf n (x / 2) ++ [x.testBit 0] := by
  unfold bitsOf
  rw [List.range_succ, List.map_append]
  congr 1
  · apply List.map_congr_left
    intro i hi
    rw [List.mem_range] at hi
    rw [Nat.testBit_div_two]
    congr 1
    omega
  · simp

theorem bitsOf_add (a b x : Nat) : bitsOf (a + b) x = bitsOf a (x / 2 ^ b) ++ bitsOf b x := by
  induction b generalizing x with
  | zero => simp [bitsOf]
  | succ b ih =>
    rw [← Nat.add_assoc, bitsOf_succ, ih, bitsOf_succ b, List.append_assoc, Nat.div_div_eq_div_mul, Nat.pow_succ, Nat.mul_comm 2]

theorem bitsOf_mod (n x : Nat) : bitsOf n (x % 2 ^ n) = bitsOf n x := by
  unfold bitsOf
  apply List.map_congr_left
  intro i hi
  rw [List.mem_range] at hi
  rw [Nat.testBit_mod_two_pow]
  simp only [Bool.and_eq_right_iff_imp, decide_eq_true_eq]
  intro
  omega

theorem ofBits_snoc (l : List Bool) (b : Bool) : ofBits (l ++ [b]) = 2 * ofBits l + b.toNat := by simp [ofBits]

theorem ofBits_bitsOf (n x : Nat) : ofBits (bitsOf n x) = x % 2 ^ n := by
  induction n generalizing x with
  | zero => simp [bitsOf, ofBits, Nat.mod_one]
  | succ n ih =>
    rw [bitsOf_succ, ofBits_snoc, ih, Nat.pow_succ, Nat.mul_comm (2 ^ n) 2, Nat.mod_mul, Nat.testBit_zero]
    rcases Nat.mod_two_eq_zero_or_one x with h | h
    · simp [h]
    · simp [h, Nat.add_comm]

theorem bitsOf_inj {n x y : Nat} (h : bitsOf n x = bitsOf n y) : x % 2 ^ n = y % 2 ^ n := by
  rw [← ofBits_bitsOf, ← ofBits_bitsOf, h]

theorem octetBits_append (a b : Bytes) : octetBits (a ++ b) = octetBits a ++ octetBits b := by simp [octetBits]

theorem octetBits_length (m : Bytes) : (octetBits m).length = 8 * m.length := by
  induction m with
  | nil => rfl
  | cons x m ih =>
    rw [show x :: m = [x] ++ m from rfl, octetBits_append, List.length_append, ih]
    simp [octetBits, bitsOf_length]
    omega

theorem octetBits_take (m : Bytes) (k : Nat) : octetBits (m.take k) = (octetBits m).take (8 * k) := by
  induction m generalizing k with
  | nil => simp [octetBits]
  | cons x m ih =>
    cases k with
    | zero => simp [octetBits]
    | succ k =>
      rw [List.take_succ_cons, show x :: m.take k = [x] ++ m.take k from rfl, show x :: m = [x] ++ m from rfl, octetBits_append,
        octetBits_append, ih, List.take_append, octetBits_length, List.take_of_length_le (l := octetBits [x])]
      · rfl
      · rw [octetBits_length, List.length_singleton]; omega

theorem octetBits_drop (m : Bytes) (k : Nat) : octetBits (m.drop k) = (octetBits m).drop (8 * k) := by
  have h := congrArg octetBits (List.take_append_drop k m)
  rw [octetBits_append, octetBits_take] at h
  exact List.append_cancel_left (h.trans (List.take_append_drop (8 * k) (octetBits m)).symm)

theorem octetBits_inj {a b : Bytes} (h : octetBits a = octetBits b) : a = b := by
  induction a generalizing b with
  | nil =>
    have := congrArg List.length h
    rw [octetBits_length, octetBits_length] at this
    cases b with
    | nil => rfl
    | cons => simp at this
  | cons x a ih =>
    cases b with
    | nil =>
      have := congrArg List.length h
      rw [octetBits_length, octetBits_length] at this
      simp at this
    | cons y b =>
      rw [show x :: a = [x] ++ a from rfl, show y :: b = [y] ++ b from rfl, octetBits_append, octetBits_append] at h
      obtain ⟨h1, h2⟩ := List.append_inj h (by rw [octetBits_length, octetBits_length]; rfl)
      have h3 := bitsOf_inj (n := 8) (x := x.val) (y := y.val) (by simpa [octetBits] using h1)
      have hx := x.isLt
      have hy := y.isLt
      rw [Nat.mod_eq_of_lt (by omega), Nat.mod_eq_of_lt (by omega)] at h3
      rw [Fin.ext h3, ih h2]

end Psion.Real
