import Verif.Real.RsaLemmas
import Mathlib.NumberTheory.LucasPrimality
import Mathlib.FieldTheory.IsAlgClosed.AlgebraicClosure
import Mathlib.FieldTheory.Finite.Basic

/-!
# Large primes

Tests that prove numbers prime, given prime factors of their neighbours.
-/

namespace Psion.Real

open Psion

/-- All prime factors of a number are above its root. -/
theorem prime_of_large {N : Nat} (hN : 1 < N) (h : ∀ l, l.Prime → l ∣ N → N < l * l) : N.Prime := by
  by_contra hc
  have h1 := Nat.minFac_sq_le_self (by omega) hc
  have h2 := h N.minFac (Nat.minFac_prime (by omega)) (Nat.minFac_dvd N)
  rw [pow_two] at h1
  exact absurd h1 (not_le.mpr h2)

/-- What divides `r m`, but not `m`, is divisible by the prime `r`. -/
theorem dvd_order {r m d : Nat} (hr : r.Prime) (h : d ∣ r * m) (hn : ¬ d ∣ m) : r ∣ d := by
  by_contra hc
  exact hn (Nat.Coprime.dvd_of_dvd_mul_left ((Nat.Prime.coprime_iff_not_dvd hr).mpr hc).symm h)

/-- Pocklington: `N - 1` has the large prime factor `r`. -/
theorem pocklington {N r a : Nat} (hr : r.Prime) (hN : 1 < N) (hd : r ∣ N - 1) (hs : N < r * r) (h1 : a ^ (N - 1) % N = 1)
    (h2 : Nat.gcd (a ^ ((N - 1) / r) % N + (N - 1)) N = 1) : N.Prime := by
  refine prime_of_large hN fun l hl hlN => ?_
  have := Fact.mk hl
  have cast : ∀ x, ((x % N : Nat) : ZMod l) = (x : ZMod l) := by
    intro x
    rw [ZMod.natCast_eq_natCast_iff]
    exact (Nat.mod_modEq x N).of_dvd hlN
  have hone : (a : ZMod l) ^ (N - 1) = 1 := by
    have := cast (a ^ (N - 1))
    rw [h1] at this
    push_cast at this
    exact this.symm
  have hN0 : ((N : Nat) : ZMod l) = 0 := (ZMod.natCast_eq_zero_iff N l).mpr hlN
  have hne : (a : ZMod l) ^ ((N - 1) / r) ≠ 1 := by
    intro hc
    have hdv : l ∣ a ^ ((N - 1) / r) % N + (N - 1) := by
      rw [← ZMod.natCast_eq_zero_iff]
      push_cast
      rw [cast, Nat.cast_sub (by omega), hN0]
      push_cast
      rw [hc]
      ring
    have := Nat.dvd_gcd hdv hlN
    rw [h2] at this
    exact hl.one_lt.ne' (Nat.dvd_one.mp this)
  have ho : r ∣ orderOf (a : ZMod l) := by
    refine dvd_order (m := (N - 1) / r) hr ?_ (fun h => hne (orderOf_dvd_iff_pow_eq_one.mp h))
    rw [Nat.mul_div_cancel' hd]
    exact orderOf_dvd_of_pow_eq_one hone
  have ha0 : (a : ZMod l) ≠ 0 := by
    intro h0
    rw [h0, zero_pow (by omega)] at hone
    exact zero_ne_one hone
  have hle := Nat.le_of_dvd (by have := hl.two_le; omega) (ho.trans (ZMod.orderOf_dvd_card_sub_one ha0))
  have := hl.two_le
  calc N < r * r := hs
    _ ≤ l * l := Nat.mul_le_mul (by omega) (by omega)

/-- `(a + b √D) (c + d √D)` modulo `N`. -/
def quadMul (D N : Nat) (x y : Nat × Nat) (k : Nat × Nat → Nat × Nat) : Nat × Nat :=
  force ((x.1 * y.1 + D * x.2 * y.2) % N) fun u => force ((x.1 * y.2 + x.2 * y.1) % N) fun v => k (u, v)

/-- `acc * x ^ e` for `e` below `2 ^ fuel`. -/
def quadPow (D N : Nat) : Nat → Nat × Nat → Nat → Nat × Nat → Nat × Nat
  | 0, _, _, acc => acc
  | fuel + 1, x, e, acc =>
    force (e / 2) fun e' =>
    if e % 2 = 1 then quadMul D N acc x fun acc' => quadMul D N x x fun x' => quadPow D N fuel x' e' acc'
    else quadMul D N x x fun x' => quadPow D N fuel x' e' acc

/-- The number `a + b s`. -/
def quadAt {K : Type} [Semiring K] (s : K) (x : Nat × Nat) : K := (x.1 : K) + (x.2 : K) * s

section
variable {K : Type} [Field K] {N D : Nat} (hN : (N : K) = 0) {s : K} (hs : s * s = (D : K))
include hN

theorem cast_mod (x : Nat) : ((x % N : Nat) : K) = (x : K) := by
  conv_rhs => rw [← Nat.div_add_mod x N]
  push_cast
  rw [hN]
  ring

include hs

theorem quadMul_at (x y : Nat × Nat) (k : Nat × Nat → Nat × Nat) :
    ∃ z, quadMul D N x y k = k z ∧ quadAt s z = quadAt s x * quadAt s y := by
  refine ⟨((x.1 * y.1 + D * x.2 * y.2) % N, (x.1 * y.2 + x.2 * y.1) % N), ?_, ?_⟩
  · simp only [quadMul, force_eq]
  · simp only [quadAt, cast_mod hN]
    push_cast
    rw [← hs]
    ring

theorem quadPow_at (fuel : Nat) : ∀ (x : Nat × Nat) (e : Nat) (acc : Nat × Nat), e < 2 ^ fuel →
    quadAt s (quadPow D N fuel x e acc) = quadAt s acc * quadAt s x ^ e := by
  induction fuel with
  | zero =>
    intro x e acc he
    have : e = 0 := by simpa using he
    subst this
    simp [quadPow]
  | succ fuel ih =>
    intro x e acc he
    have he2 : e / 2 < 2 ^ fuel := by rw [pow_succ] at he; omega
    simp only [quadPow, force_eq]
    obtain ⟨x', hx', hx⟩ := quadMul_at hN hs x x fun x' => quadPow D N fuel x' (e / 2) acc
    split
    · rename_i ho
      obtain ⟨a', ha', ha⟩ := quadMul_at hN hs acc x fun acc' => quadMul D N x x fun x' => quadPow D N fuel x' (e / 2) acc'
      rw [ha']
      obtain ⟨x', hx', hx⟩ := quadMul_at hN hs x x fun x' => quadPow D N fuel x' (e / 2) a'
      rw [hx', ih _ _ _ he2, ha, hx]
      conv_rhs => rw [show e = 2 * (e / 2) + 1 by omega, pow_succ, pow_mul]
      ring
    · rename_i ho
      rw [hx', ih _ _ _ he2, hx]
      conv_rhs => rw [show e = 2 * (e / 2) by omega, pow_mul]
      ring

end
/-- With `s ^ 2 = D` every number `a + b s` is its own power with exponent `l ^ 2`. -/
theorem quad_frobenius {l : Nat} [Fact l.Prime] {K : Type} [Field K] [CharP K l] (hodd : l % 2 = 1) {s : K} {D : Nat} (hs : s * s = (D : K))
    (hD : (D : K) ≠ 0) (x : Nat × Nat) : quadAt s x ^ (l * l) = quadAt s x := by
  have fix : ∀ n : Nat, ((n : K)) ^ l = n := by
    intro n
    have h := ZMod.pow_card (n : ZMod l)
    have := congrArg (ZMod.castHom (dvd_refl l) K) h
    rwa [map_pow, map_natCast] at this
  have hl : 1 ≤ l := (Fact.out : l.Prime).one_le
  have hDl : (D : K) ^ (l - 1) = 1 := by
    have h := fix D
    rw [show l = (l - 1) + 1 by omega, pow_succ] at h
    exact mul_right_cancel₀ hD (by rw [h, one_mul])
  have hss : s ^ (l * l) = s := by
    obtain ⟨k, hk⟩ : ∃ k, l = 2 * k + 1 := ⟨l / 2, by omega⟩
    have e : l * l = 2 * ((l - 1) * (k + 1)) + 1 := by
      have : l - 1 = 2 * k := by omega
      rw [this, hk]; ring
    rw [e, pow_succ, pow_mul, pow_two, hs, pow_mul, hDl, one_pow, one_mul]
  unfold quadAt
  rw [pow_mul, add_pow_char, mul_pow, fix, fix, add_pow_char, mul_pow, fix, fix, ← pow_mul, hss]

/-- The test for numbers `N` such that `N + 1` has a large prime factor `r`. -/
theorem plus_test {N r D a b f1 f2 : Nat} {u : Nat × Nat} (hr : r.Prime) (hN : 1 < N) (hodd : N % 2 = 1) (hd : r ∣ N + 1) (hs : N < (r - 1) * (r - 1))
    (hD : Nat.gcd D N = 1) (h1 : quadPow D N f1 (a, b) (N + 1) (1, 0) = (1, 0)) (hf1 : N + 1 < 2 ^ f1)
    (hu : quadPow D N f2 (a, b) ((N + 1) / r) (1, 0) = u) (hf2 : (N + 1) / r < 2 ^ f2)
    (h2 : Nat.gcd ((u.1 + (N - 1)) * (u.1 + (N - 1)) + (N - D % N) * (u.2 * u.2)) N = 1) : N.Prime := by
  refine prime_of_large hN fun l hl hlN => ?_
  have := Fact.mk hl
  have hlodd : l % 2 = 1 := by
    obtain ⟨c, hc⟩ := hlN
    by_contra h
    have h0 : l % 2 = 0 := by omega
    rw [hc, Nat.mul_mod, h0] at hodd
    simp at hodd
  let K := AlgebraicClosure (ZMod l)
  have : CharP K l := charP_of_injective_algebraMap (algebraMap (ZMod l) K).injective l
  have zero : ∀ n : Nat, (n : K) = 0 ↔ l ∣ n := CharP.cast_eq_zero_iff K l
  have hN0 : (N : K) = 0 := (zero N).mpr hlN
  have hD0 : (D : K) ≠ 0 := by
    intro h
    have := Nat.dvd_gcd ((zero D).mp h) hlN
    rw [hD] at this
    exact hl.one_lt.ne' (Nat.dvd_one.mp this)
  obtain ⟨s, hs2⟩ := IsAlgClosed.exists_pow_nat_eq (D : K) (n := 2) (by decide)
  have hss : s * s = (D : K) := by rw [← pow_two]; exact hs2
  have one : quadAt s ((1, 0) : Nat × Nat) = 1 := by simp [quadAt]
  have hp1 : quadAt s (a, b) ^ (N + 1) = 1 := by
    have := quadPow_at hN0 hss f1 (a, b) (N + 1) (1, 0) hf1
    rw [h1, one, one_mul] at this
    exact this.symm
  have hne : quadAt s (a, b) ^ ((N + 1) / r) ≠ 1 := by
    intro hc
    have hq := quadPow_at hN0 hss f2 (a, b) ((N + 1) / r) (1, 0) hf2
    rw [hu, one, one_mul, hc] at hq
    have hq1 : ((u.1 : K) - 1) + (u.2 : K) * s = 0 := by
      unfold quadAt at hq
      rw [sub_add_eq_add_sub, hq, sub_self]
    have hDN : ((N - D % N : Nat) : K) = - (D : K) := by
      rw [Nat.cast_sub (Nat.mod_lt _ (by omega)).le, cast_mod hN0, hN0, zero_sub]
    have hz : (((u.1 + (N - 1)) * (u.1 + (N - 1)) + (N - D % N) * (u.2 * u.2) : Nat) : K) = 0 := by
      have h1N : ((N - 1 : Nat) : K) = - 1 := by rw [Nat.cast_sub (by omega), hN0, Nat.cast_one, zero_sub]
      rw [Nat.cast_add, Nat.cast_mul, Nat.cast_mul, Nat.cast_mul, Nat.cast_add, hDN, h1N, ← hss]
      linear_combination (((u.1 : K) - 1) - (u.2 : K) * s) * hq1
    have := Nat.dvd_gcd ((zero _).mp hz) hlN
    rw [h2] at this
    exact hl.one_lt.ne' (Nat.dvd_one.mp this)
  have ho : r ∣ orderOf (quadAt s (a, b)) := by
    refine dvd_order (m := (N + 1) / r) hr ?_ (fun h => hne (orderOf_dvd_iff_pow_eq_one.mp h))
    rw [Nat.mul_div_cancel' hd]
    exact orderOf_dvd_of_pow_eq_one hp1
  have hx0 : quadAt s (a, b) ≠ 0 := by
    intro h0
    rw [h0, zero_pow (by omega)] at hp1
    exact zero_ne_one hp1
  have hl1 := hl.one_le
  have hfr : quadAt s (a, b) ^ (l * l - 1) = 1 := by
    have h := quad_frobenius hlodd hss hD0 (a, b)
    have h1 : 1 ≤ l * l := Nat.mul_le_mul hl1 hl1
    rw [show l * l = (l * l - 1) + 1 by omega, pow_succ] at h
    exact mul_right_cancel₀ hx0 (by rw [h, one_mul])
  have hdv : r ∣ (l + 1) * (l - 1) := by
    have := ho.trans (orderOf_dvd_of_pow_eq_one hfr)
    rwa [show l * l - 1 = (l + 1) * (l - 1) by rw [← Nat.mul_self_sub_mul_self_eq, one_mul]] at this
  have hge : r - 1 ≤ l := by
    have h2 := hl.two_le
    rcases (Nat.Prime.dvd_mul hr).mp hdv with h | h
    · have := Nat.le_of_dvd (by omega) h
      omega
    · have := Nat.le_of_dvd (by omega) h
      omega
  exact lt_of_lt_of_le hs (Nat.mul_le_mul hge hge)

/-- Lucas: all prime factors of `N - 1` are known. -/
theorem lucas_test {N a : Nat} {fs : List Nat} (hfs : ∀ q ∈ fs, q.Prime) (hN : 1 < N) (hprod : fs.prod = N - 1)
    (h1 : a ^ (N - 1) % N = 1) (h2 : ∀ q ∈ fs, a ^ ((N - 1) / q) % N ≠ 1) : N.Prime := by
  have conv : ∀ x, a ^ x % N = 1 ↔ ((a : ZMod N) ^ x = 1) := by
    intro x
    have : ((a : ZMod N) ^ x = 1) ↔ ((a ^ x : Nat) : ZMod N) = ((1 : Nat) : ZMod N) := by push_cast; rfl
    rw [this, ZMod.natCast_eq_natCast_iff]
    unfold Nat.ModEq
    rw [Nat.mod_eq_of_lt hN]
  refine lucas_primality N (a : ZMod N) ((conv _).mp h1) fun q hq hd => ?_
  rw [← hprod] at hd
  obtain ⟨f, hf, hdf⟩ := (Prime.dvd_prod_iff hq.prime).mp hd
  rw [(Nat.prime_dvd_prime_iff_eq hq (hfs f hf)).mp hdf]
  exact fun hc => h2 f hf ((conv _).mpr hc)

/-- A reason why a number is prime: it is below 160000 and has no factor below 400, or one of the tests. -/
inductive Reason
  | small
  | minus (r a : Nat)
  | plus (r D a b : Nat)
  | lucas (a : Nat) (fs : List Nat)

/-- The reason holds, if the numbers of the list are prime. -/
def Reason.holds (N : Nat) (known : List Nat) : Reason → Bool
  | .small => decide (2 ≤ N) && decide (N < 160000) && (List.range 400).all fun m => decide (m < 2) || decide (N ≤ m) || N % m != 0
  | .minus r a => known.contains r && decide (1 < N) && (N - 1) % r == 0 && decide (N < r * r) && powMod a (N - 1) N == 1 &&
      Nat.gcd (powMod a ((N - 1) / r) N + (N - 1)) N == 1
  | .plus r D a b => known.contains r && decide (1 < N) && N % 2 == 1 && (N + 1) % r == 0 && decide (N < (r - 1) * (r - 1)) &&
      Nat.gcd D N == 1 && quadPow D N (Spec.bits (N + 1)) (a, b) (N + 1) (1, 0) == (1, 0) &&
      (match quadPow D N (Spec.bits ((N + 1) / r)) (a, b) ((N + 1) / r) (1, 0) with
        | (u, v) => Nat.gcd ((u + (N - 1)) * (u + (N - 1)) + (N - D % N) * (v * v)) N == 1)
  | .lucas a fs => fs.all (fun q => known.contains q && powMod a ((N - 1) / q) N != 1) && decide (1 < N) && fs.prod == N - 1 &&
      powMod a (N - 1) N == 1

theorem Reason.sound {N : Nat} {known : List Nat} {r : Reason} (hk : ∀ q ∈ known, q.Prime) (h : r.holds N known = true) : N.Prime := by
  cases r with
  | small =>
    simp only [Reason.holds, Bool.and_eq_true, decide_eq_true_eq, List.all_eq_true, List.mem_range, Bool.or_eq_true, bne_iff_ne, ne_eq] at h
    obtain ⟨⟨h2, hlt⟩, hall⟩ := h
    refine prime_of_large (by omega) fun l hl hd => ?_
    by_contra hc
    have hl4 : l < 400 := by
      by_contra h4
      have := Nat.mul_le_mul (show 400 ≤ l by omega) (show 400 ≤ l by omega)
      omega
    rcases hall l hl4 with (h | h) | h
    · have := hl.two_le
      omega
    · have := Nat.mul_le_mul h hl.two_le
      have := Nat.mul_le_mul (show 1 ≤ l by omega) (show N ≤ l from h)
      have h3 : l * 2 ≤ l * l := Nat.mul_le_mul (le_refl l) hl.two_le
      omega
    · exact h (Nat.mod_eq_zero_of_dvd hd)
  | minus r a =>
    simp only [Reason.holds, Bool.and_eq_true, decide_eq_true_eq, List.contains_iff_mem, beq_iff_eq, powMod_eq] at h
    obtain ⟨⟨⟨⟨⟨h1, h2⟩, h3⟩, h4⟩, h5⟩, h6⟩ := h
    exact pocklington (hk r h1) h2 (Nat.dvd_of_mod_eq_zero h3) h4 h5 h6
  | plus r D a b =>
    simp only [Reason.holds, Bool.and_eq_true, decide_eq_true_eq, List.contains_iff_mem, beq_iff_eq] at h
    obtain ⟨⟨⟨⟨⟨⟨⟨h1, h2⟩, h3⟩, h4⟩, h5⟩, h6⟩, h7⟩, h8⟩ := h
    exact plus_test (hk r h1) h2 h3 (Nat.dvd_of_mod_eq_zero h4) h5 h6 h7 (lt_bits _) rfl (lt_bits _) h8
  | lucas a fs =>
    simp only [Reason.holds, Bool.and_eq_true, decide_eq_true_eq, List.contains_iff_mem, beq_iff_eq, powMod_eq, List.all_eq_true,
      bne_iff_ne] at h
    obtain ⟨⟨⟨h1, h2⟩, h3⟩, h4⟩ := h
    exact lucas_test (fun q hq => hk q (h1 q hq).1) h2 h3 h4 (fun q hq => (h1 q hq).2)

/-- Every number has a reason in the ones before it. -/
def allHold : List Nat → List (Nat × Reason) → Bool
  | _, [] => true
  | known, (n, r) :: l => r.holds n known && allHold (n :: known) l

theorem allHold_sound : ∀ {known : List Nat} {l : List (Nat × Reason)}, (∀ q ∈ known, q.Prime) → allHold known l = true →
    ∀ nr ∈ l, nr.1.Prime
  | _, [], _, _, _, h => by cases h
  | known, (n, r) :: l, hk, h, nr, hm => by
    rw [allHold, Bool.and_eq_true] at h
    have hn := Reason.sound hk h.1
    rcases List.mem_cons.mp hm with rfl | hm
    · exact hn
    · exact allHold_sound (by
        intro q hq
        rcases List.mem_cons.mp hq with rfl | hq
        · exact hn
        · exact hk q hq) h.2 nr hm

end Psion.Real
