import Verif.Real.CurvePrimes
import Verif.Real.CryptoLemmas
import Mathlib.AlgebraicGeometry.EllipticCurve.Affine.Point
import Mathlib.Tactic.FieldSimp
import Mathlib.Tactic.LinearCombination
import Mathlib.Combinatorics.Pigeonhole
import Mathlib.GroupTheory.OrderOfElement

/-!
# The arithmetic of `Verif/Real/Curve.lean` is the group of points of the curve

The group is the one of Mathlib. A point in Jacobian coordinates represents a point of the group, and the operations on the coordinates
represent the operations of the group.
-/

namespace Psion.Real

open Psion WeierstrassCurve

/-- The curve over its field. -/
def Domain.curve (c : Domain) : Affine (ZMod c.p) := ⟨0, 0, 0, -3, c.b⟩

/-- The coordinates are those of the point. -/
def Rep (c : Domain) (q : Point) : c.curve.Point → Prop
  | .zero => q.z = 0
  | .some x y _ => (q.z : ZMod c.p) ≠ 0 ∧ (q.x : ZMod c.p) = x * q.z ^ 2 ∧ (q.y : ZMod c.p) = y * q.z ^ 3

theorem cast_mod' (p a : Nat) : ((a % p : Nat) : ZMod p) = a := by simp

theorem cast_sub (c : Domain) (h : 0 < c.p) (a b : Nat) : ((c.sub a b : Nat) : ZMod c.p) = a - b := by
  unfold Domain.sub
  rw [cast_mod', Nat.cast_add, Nat.cast_sub (Nat.mod_lt _ h).le, cast_mod']
  simp [sub_eq_add_neg]

theorem double_id (c : Domain) (q : Point) (k : Point → Point) : c.double q k = k (c.double q id) := by
  unfold Domain.double
  simp only [force_eq, id]

theorem add_id (c : Domain) (q r : Point) (k : Point → Point) : c.add q r k = k (c.add q r id) := by
  unfold Domain.add
  simp only [force_eq, id]
  split
  · rfl
  split
  · rfl
  split
  · split
    · exact double_id c q k
    · rfl
  · rfl

theorem negY_eq (c : Domain) (x y : ZMod c.p) : c.curve.negY x y = -y := by
  simp [Affine.negY, Domain.curve]

theorem addX_eq (c : Domain) (x x' l : ZMod c.p) : c.curve.addX x x' l = l ^ 2 - x - x' := by
  simp [Affine.addX, Domain.curve]

theorem addY_eq (c : Domain) (x x' y l : ZMod c.p) : c.curve.addY x x' y l = -(l * (l ^ 2 - x - x' - x) + y) := by
  rw [Affine.addY, Affine.negAddY, negY_eq, addX_eq]

variable {c : Domain} [hp : Fact c.p.Prime]

theorem Rep.double (h2 : (2 : ZMod c.p) ≠ 0) {q : Point} {P : c.curve.Point} (h : Rep c q P) : Rep c (c.double q id) (P + P) := by
  have p0 := hp.out.pos
  have hz3 : ((c.double q id).z : ZMod c.p) = 2 * q.y * q.z := by
    unfold Domain.double
    simp only [force_eq, id, cast_sub c p0, cast_mod', Nat.cast_mul, Nat.cast_add]
    ring
  have hlt : (c.double q id).z < c.p := by
    unfold Domain.double
    simp only [force_eq, id]
    exact Nat.mod_lt _ p0
  have zero (h : ((c.double q id).z : ZMod c.p) = 0) : (c.double q id).z = 0 :=
    Nat.eq_zero_of_dvd_of_lt ((ZMod.natCast_eq_zero_iff _ _).mp h) hlt
  cases P with
  | zero =>
    have h' : q.z = 0 := h
    exact zero (by rw [hz3, h']; simp)
  | some x y hxy =>
    obtain ⟨hz, hx, hy⟩ := h
    by_cases hy0 : y = 0
    · rw [Affine.Point.add_self_of_Y_eq (by rw [negY_eq, hy0, neg_zero])]
      exact zero (by rw [hz3, hy, hy0]; simp)
    · have hne : y ≠ c.curve.negY x y := by
        rw [negY_eq]
        intro e
        have : 2 * y = 0 := by linear_combination e
        rcases mul_eq_zero.mp this with h | h
        · exact h2 h
        · exact hy0 h
      rw [Affine.Point.add_self_of_Y_ne hne]
      have hx3 : ((c.double q id).x : ZMod c.p) = (3 * (q.x - q.z ^ 2) * (q.x + q.z ^ 2)) ^ 2 - 8 * (q.x * q.y ^ 2) := by
        unfold Domain.double
        simp only [force_eq, id, cast_sub c p0, cast_mod', Nat.cast_mul, Nat.cast_add]
        push_cast
        ring
      have hy3 : ((c.double q id).y : ZMod c.p) =
          3 * (q.x - q.z ^ 2) * (q.x + q.z ^ 2) * (4 * (q.x * q.y ^ 2) - (c.double q id).x) - 8 * q.y ^ 4 := by
        rw [hx3]
        unfold Domain.double
        simp only [force_eq, id, cast_sub c p0, cast_mod', Nat.cast_mul, Nat.cast_add]
        push_cast
        ring
      simp only [Rep]
      generalize hl' : c.curve.slope x x y y = l
      have hl : 3 * x ^ 2 - 3 = l * (2 * y) := by
        rw [← hl', Affine.slope_of_Y_ne rfl hne, negY_eq, show y - -y = 2 * y by ring, div_mul_cancel₀ _ (mul_ne_zero h2 hy0)]
        simp [Domain.curve, sub_eq_add_neg]
      refine ⟨?_, ?_, ?_⟩
      · rw [hz3, hy]
        exact mul_ne_zero (mul_ne_zero h2 (mul_ne_zero hy0 (pow_ne_zero _ hz))) hz
      · rw [hx3, hz3, hx, hy, addX_eq]
        linear_combination (q.z : ZMod c.p) ^ 8 * (3 * x ^ 2 - 3 + l * (2 * y)) * hl
      · rw [hy3, hx3, hz3, hx, hy, addY_eq]
        linear_combination (q.z : ZMod c.p) ^ 12 *
          (12 * x * y ^ 2 - ((3 * x ^ 2 - 3) ^ 2 + (3 * x ^ 2 - 3) * (l * (2 * y)) + (l * (2 * y)) ^ 2)) * hl

theorem Rep.add (h2 : (2 : ZMod c.p) ≠ 0) {q r : Point} {P Q : c.curve.Point} (hq : Rep c q P) (hr : Rep c r Q) :
    Rep c (c.add q r id) (P + Q) := by
  have p0 := hp.out.pos
  cases P with
  | zero =>
    have h' : q.z = 0 := hq
    have : c.add q r id = r := by
      unfold Domain.add
      rw [if_pos h']
      rfl
    rw [this]
    exact (zero_add Q).symm ▸ hr
  | some x y hxy =>
    obtain ⟨hz, hx, hy⟩ := hq
    have hzn : q.z ≠ 0 := fun e => hz (by rw [e]; simp)
    cases Q with
    | zero =>
      have h' : r.z = 0 := hr
      have : c.add q r id = q := by
        unfold Domain.add
        rw [if_neg hzn, if_pos h']
        rfl
      rw [this]
      exact (add_zero (Affine.Point.some x y hxy)).symm ▸ ⟨hz, hx, hy⟩
    | some x' y' hxy' =>
      obtain ⟨hz', hx', hy'⟩ := hr
      have hzn' : r.z ≠ 0 := fun e => hz' (by rw [e]; simp)
      have modEq (a b : Nat) : a % c.p = b % c.p ↔ (a : ZMod c.p) = b := (ZMod.natCast_eq_natCast_iff a b c.p).symm
      have hu : (q.x * (r.z * r.z % c.p) % c.p = r.x * (q.z * q.z % c.p) % c.p) ↔ x = x' := by
        rw [modEq]
        simp only [Nat.cast_mul, cast_mod', hx, hx']
        constructor
        · intro e
          have : (x - x') * (q.z ^ 2 * r.z ^ 2) = 0 := by linear_combination e
          rcases mul_eq_zero.mp this with h | h
          · exact sub_eq_zero.mp h
          · exact absurd h (mul_ne_zero (pow_ne_zero _ hz) (pow_ne_zero _ hz'))
        · rintro rfl
          ring
      have hs : (q.y * r.z * (r.z * r.z % c.p) % c.p = r.y * q.z * (q.z * q.z % c.p) % c.p) ↔ y = y' := by
        rw [modEq]
        simp only [Nat.cast_mul, cast_mod', hy, hy']
        constructor
        · intro e
          have : (y - y') * (q.z ^ 3 * r.z ^ 3) = 0 := by linear_combination e
          rcases mul_eq_zero.mp this with h | h
          · exact sub_eq_zero.mp h
          · exact absurd h (mul_ne_zero (pow_ne_zero _ hz) (pow_ne_zero _ hz'))
        · rintro rfl
          ring
      by_cases ex : x = x'
      · subst ex
        by_cases ey : y = y'
        · subst ey
          have : c.add q r id = c.double q id := by
            unfold Domain.add
            simp only [force_eq]
            rw [if_neg hzn, if_neg hzn', if_pos (hu.mpr rfl), if_pos (hs.mpr rfl)]
          rw [this]
          exact Rep.double h2 (P := .some x y hxy) ⟨hz, hx, hy⟩
        · have : c.add q r id = ⟨1, 1, 0⟩ := by
            unfold Domain.add
            simp only [force_eq]
            rw [if_neg hzn, if_neg hzn', if_pos (hu.mpr rfl), if_neg (fun e => ey (hs.mp e))]
            rfl
          rw [this, Affine.Point.add_of_Y_eq rfl ((Affine.Y_eq_of_X_eq hxy.1 hxy'.1 rfl).resolve_left ey)]
          rfl
      · rw [Affine.Point.add_of_X_ne ex]
        simp only [Rep]
        generalize hl' : c.curve.slope x x' y y' = l
        have hd : x - x' ≠ 0 := sub_ne_zero.mpr ex
        have hl : y - y' = l * (x - x') := by
          rw [← hl', Affine.slope_of_X_ne ex, div_mul_cancel₀ _ hd]
        have hz3 : ((c.add q r id).z : ZMod c.p) = (r.x * q.z ^ 2 - q.x * r.z ^ 2) * q.z * r.z := by
          unfold Domain.add
          simp only [force_eq]
          rw [if_neg hzn, if_neg hzn', if_neg (fun e => ex (hu.mp e))]
          simp only [id, cast_sub c p0, cast_mod', Nat.cast_mul]
          ring
        have hx3 : ((c.add q r id).x : ZMod c.p) = (r.y * q.z ^ 3 - q.y * r.z ^ 3) ^ 2 -
            ((r.x * q.z ^ 2 - q.x * r.z ^ 2) ^ 3 + 2 * (q.x * r.z ^ 2 * (r.x * q.z ^ 2 - q.x * r.z ^ 2) ^ 2)) := by
          unfold Domain.add
          simp only [force_eq]
          rw [if_neg hzn, if_neg hzn', if_neg (fun e => ex (hu.mp e))]
          simp only [id, cast_sub c p0, cast_mod', Nat.cast_mul, Nat.cast_add]
          push_cast
          ring
        have hy3 : ((c.add q r id).y : ZMod c.p) = (r.y * q.z ^ 3 - q.y * r.z ^ 3) *
            (q.x * r.z ^ 2 * (r.x * q.z ^ 2 - q.x * r.z ^ 2) ^ 2 - (c.add q r id).x) -
            q.y * r.z ^ 3 * (r.x * q.z ^ 2 - q.x * r.z ^ 2) ^ 3 := by
          rw [hx3]
          unfold Domain.add
          simp only [force_eq]
          rw [if_neg hzn, if_neg hzn', if_neg (fun e => ex (hu.mp e))]
          simp only [id, cast_sub c p0, cast_mod', Nat.cast_mul, Nat.cast_add]
          push_cast
          ring
        have e1 : (r.x * q.z ^ 2 - q.x * r.z ^ 2 : ZMod c.p) = -(x - x') * (q.z * r.z) ^ 2 := by
          rw [hx, hx']
          ring
        have e2 : (r.y * q.z ^ 3 - q.y * r.z ^ 3 : ZMod c.p) = -(l * (x - x')) * (q.z * r.z) ^ 3 := by
          rw [hy, hy', ← hl]
          ring
        refine ⟨?_, ?_, ?_⟩
        · rw [hz3, e1]
          exact mul_ne_zero (mul_ne_zero (mul_ne_zero (neg_ne_zero.mpr hd) (pow_ne_zero _ (mul_ne_zero hz hz'))) hz) hz'
        · rw [hx3, hz3, e1, e2, hx, addX_eq]
          ring
        · rw [hy3, hx3, hz3, e1, e2, hx, hy, addY_eq]
          ring

/-- `acc + e * q` -/
theorem Rep.mulAux (h2 : (2 : ZMod c.p) ≠ 0) : ∀ (fuel : Nat) {q acc : Point} {P A : c.curve.Point} {e : Nat}, Rep c q P → Rep c acc A →
    e < 2 ^ fuel → Rep c (c.mulAux fuel q e acc) (A + e • P)
  | 0, q, acc, P, A, e, _, ha, he => by
    have : e = 0 := by omega
    subst this
    rw [zero_nsmul, add_zero]
    exact ha
  | fuel + 1, q, acc, P, A, e, hq, ha, he => by
    have he' : e / 2 < 2 ^ fuel := by omega
    unfold Domain.mulAux
    simp only [force_eq]
    split
    · rename_i h1
      rw [add_id, double_id]
      have e' : A + e • P = A + P + (e / 2) • (P + P) := by
        conv => lhs; rw [show e = 1 + e / 2 * 2 by omega]
        rw [add_nsmul, mul_nsmul', one_nsmul, two_nsmul, add_assoc]
      rw [e']
      exact Rep.mulAux h2 fuel (Rep.double h2 hq) (Rep.add h2 ha hq) he'
    · rename_i h1
      rw [double_id]
      have e' : A + e • P = A + (e / 2) • (P + P) := by
        conv => lhs; rw [show e = e / 2 * 2 by omega]
        rw [mul_nsmul', two_nsmul]
      rw [e']
      exact Rep.mulAux h2 fuel (Rep.double h2 hq) ha he'

theorem Rep.mul (h2 : (2 : ZMod c.p) ≠ 0) {q : Point} {P : c.curve.Point} (hq : Rep c q P) (e : Nat) : Rep c (c.mul e q) (e • P) := by
  have := Rep.mulAux h2 (Spec.bits e) hq (A := .zero) (acc := ⟨1, 1, 0⟩) rfl (lt_bits e)
  rwa [show (Affine.Point.zero : c.curve.Point) = 0 from rfl, zero_add] at this

/-- A point without affine coordinates is the one at infinity. -/
theorem Rep.affine_none {q : Point} {P : c.curve.Point} (hq : Rep c q P) (h : c.affine q = none) : P = 0 := by
  unfold Domain.affine at h
  simp only [force_eq] at h
  split at h
  · rename_i hz
    cases P with
    | zero => rfl
    | some x y hxy => exact absurd (by rw [hz]; simp) hq.1
  · cases h

theorem Rep.affine_some {q : Point} {P : c.curve.Point} (hq : Rep c q P) {x y : Nat} (h : c.affine q = some (x, y)) :
    x < c.p ∧ y < c.p ∧ ∃ hxy, P = .some x y hxy := by
  have p0 := hp.out.pos
  unfold Domain.affine at h
  simp only [force_eq] at h
  split at h
  · cases h
  · rename_i hz
    cases P with
    | zero => exact absurd hq hz
    | some x' y' hxy =>
      obtain ⟨hz', hx, hy⟩ := hq
      have hpow : (powMod q.z (c.p - 2) c.p : ZMod c.p) * q.z = 1 := by
        rw [powMod_eq, cast_mod', Nat.cast_pow, ← pow_succ, show c.p - 2 + 1 = c.p - 1 by have := hp.out.two_le; omega]
        exact ZMod.pow_card_sub_one_eq_one hz'
      simp only [Option.some.injEq, Prod.mk.injEq] at h
      obtain ⟨rfl, rfl⟩ := h
      have ex : ((q.x * (powMod q.z (c.p - 2) c.p * powMod q.z (c.p - 2) c.p) % c.p : Nat) : ZMod c.p) = x' := by
        rw [cast_mod']
        simp only [Nat.cast_mul]
        rw [hx]
        linear_combination x' * (powMod q.z (c.p - 2) c.p * q.z + 1 : ZMod c.p) * hpow
      have ey : ((q.y * (powMod q.z (c.p - 2) c.p * powMod q.z (c.p - 2) c.p % c.p * powMod q.z (c.p - 2) c.p) % c.p : Nat) :
          ZMod c.p) = y' := by
        rw [cast_mod']
        simp only [Nat.cast_mul, cast_mod']
        rw [hy]
        linear_combination y' * ((powMod q.z (c.p - 2) c.p * q.z) ^ 2 + powMod q.z (c.p - 2) c.p * q.z + 1 : ZMod c.p) * hpow
      refine ⟨Nat.mod_lt _ p0, Nat.mod_lt _ p0, ?_⟩
      rw [ex, ey]
      exact ⟨hxy, rfl⟩

end Psion.Real
