import Verif.Real.Sha2Lemmas
import Verif.Real.EcLemmas
import Verif.Spec.Fips186

/-!
# What ECDSA signs, it accepts
-/

namespace Psion.Real

open Psion Psion.Spec WeierstrassCurve

theorem two_ne (crv : Curve) : (2 : ZMod (domain crv).p) ≠ 0 := by
  have : ((2 : Nat) : ZMod (domain crv).p) ≠ 0 := by
    rw [Ne, ZMod.natCast_eq_zero_iff]
    cases crv <;> decide +kernel
  exact_mod_cast this

/-- `4 a ^ 3 + 27 b ^ 2` is not zero. -/
theorem disc_ne (crv : Curve) : (domain crv).curve.Δ ≠ 0 := by
  have h : (domain crv).curve.Δ = ((16 * (domain crv).sub (4 * 27) (27 * (domain crv).b ^ 2) : Nat) : ZMod (domain crv).p) := by
    rw [Nat.cast_mul, cast_sub _ (field_prime crv).pos]
    simp only [WeierstrassCurve.Δ, WeierstrassCurve.b₂, WeierstrassCurve.b₄, WeierstrassCurve.b₆, WeierstrassCurve.b₈, Domain.curve]
    push_cast
    ring
  rw [h, Ne, ZMod.natCast_eq_zero_iff]
  cases crv <;> decide +kernel

/-- What `Domain.on` says. -/
theorem equation_of_on {crv : Curve} {x y : Nat} (h : (domain crv).on x y = true) : (domain crv).curve.Nonsingular x y := by
  rw [← Affine.equation_iff_nonsingular_of_Δ_ne_zero (disc_ne crv), Affine.equation_iff]
  unfold Domain.on at h
  simp only [Bool.and_eq_true, beq_iff_eq] at h
  have := congrArg (Nat.cast : Nat → ZMod (domain crv).p) h.2
  rw [cast_mod', cast_sub _ (field_prime crv).pos] at this
  simp only [Domain.curve]
  push_cast at this
  linear_combination this

theorem base_on (crv : Curve) : (domain crv).on (domain crv).gx (domain crv).gy = true := by cases crv <;> decide +kernel

/-- The base point. -/
def G (crv : Curve) : (domain crv).curve.Point := .some (domain crv).gx (domain crv).gy (equation_of_on (base_on crv))

theorem rep_affine {crv : Curve} {x y : Nat} (h : (domain crv).curve.Nonsingular x y) :
    Rep (domain crv) ⟨x, y, 1⟩ (.some x y h) := by
  have : (domain crv).p ≠ 1 := (field_prime crv).ne_one
  simp only [Rep, Nat.cast_one, one_pow, mul_one, and_true]
  exact one_ne_zero

theorem rep_base (crv : Curve) : Rep (domain crv) (domain crv).base (G crv) := rep_affine _

theorem rep_mul (crv : Curve) (e : Nat) : Rep (domain crv) ((domain crv).mul e (domain crv).base) (e • G crv) :=
  Rep.mul (two_ne crv) (rep_base crv) e

theorem order (crv : Curve) : addOrderOf (G crv) = (domain crv).n := by
  refine addOrderOf_eq_prime ?_ ?_
  · have h := rep_mul crv (domain crv).n
    have hz : ((domain crv).mul (domain crv).n (domain crv).base).z = 0 := by cases crv <;> decide +kernel
    cases hP : (domain crv).n • G crv with
    | zero => rfl
    | some x y hxy =>
      rw [hP] at h
      exact absurd (by rw [hz]; simp) h.1
  · exact Affine.Point.some_ne_zero _

theorem smul_eq (crv : Curve) {a b : Nat} : a • G crv = b • G crv ↔ (a : ZMod (domain crv).n) = b := by
  rw [nsmul_eq_nsmul_iff_modEq, order, ZMod.natCast_eq_natCast_iff]

theorem inverse (crv : Curve) {a : Nat} (ha : (a : ZMod (domain crv).n) ≠ 0) :
    (powMod a ((domain crv).n - 2) (domain crv).n : ZMod (domain crv).n) * a = 1 := by
  rw [powMod_eq, cast_mod', Nat.cast_pow, ← pow_succ, show (domain crv).n - 2 + 1 = (domain crv).n - 1 by
    have := (order_prime crv).two_le; omega]
  exact ZMod.pow_card_sub_one_eq_one ha

theorem cast_ne_zero {crv : Curve} {a : Nat} (h0 : 0 < a) (h1 : a < (domain crv).n) : (a : ZMod (domain crv).n) ≠ 0 := by
  rw [Ne, ZMod.natCast_eq_zero_iff]
  exact fun h => absurd (Nat.le_of_dvd h0 h) (by omega)

/-- Two points with the same coordinates. -/
theorem OnAt.inj {crv : Curve} {P : (ecCurve crv).Point} {x y x' y' : Nat} (h : OnAt P x y) (h' : OnAt P x' y') : x = x' ∧ y = y' := by
  obtain ⟨hx, hy, hxy, rfl⟩ := h
  obtain ⟨hx', hy', hxy', he⟩ := h'
  rw [Affine.Point.some.injEq] at he
  have cut : ∀ {a b : Nat}, a < (domain crv).p → b < (domain crv).p → (a : ZMod (domain crv).p) = b → a = b := by
    intro a b ha hb hab
    have := (ZMod.natCast_eq_natCast_iff _ _ _).mp hab
    unfold Nat.ModEq at this
    rwa [Nat.mod_eq_of_lt ha, Nat.mod_eq_of_lt hb] at this
  exact ⟨cut hx hx' he.1, cut hy hy' he.2⟩

theorem OnAt.unique {crv : Curve} {P Q : (ecCurve crv).Point} {x y : Nat} (h : OnAt P x y) (h' : OnAt Q x y) : P = Q := by
  obtain ⟨-, -, hxy, rfl⟩ := h
  obtain ⟨-, -, hxy', rfl⟩ := h'
  rfl

theorem G_at (crv : Curve) : OnAt (G crv) (domain crv).gx (domain crv).gy :=
  ⟨by cases crv <;> decide +kernel, by cases crv <;> decide +kernel, _, rfl⟩

/-- The points that are accepted are those of the curve. -/
theorem on_iff (crv : Curve) (x y : Nat) : (domain crv).on x y = true ↔ ∃ P : (ecCurve crv).Point, OnAt P x y := by
  constructor
  · intro h
    have h' := h
    unfold Domain.on at h'
    simp only [Bool.and_eq_true, decide_eq_true_eq] at h'
    exact ⟨_, h'.1.1, h'.1.2, equation_of_on h, rfl⟩
  · rintro ⟨P, hx, hy, hxy, -⟩
    have he := (Affine.equation_iff _ _).mp hxy.1
    unfold Domain.on
    simp only [Bool.and_eq_true, decide_eq_true_eq, beq_iff_eq]
    refine ⟨⟨hx, hy⟩, ?_⟩
    have p0 := (field_prime crv).pos
    have hlt : (domain crv).sub (x * x * x + (domain crv).b) (3 * x) < (domain crv).p := Nat.mod_lt _ p0
    have : ((y * y : Nat) : ZMod (domain crv).p) = ((domain crv).sub (x * x * x + (domain crv).b) (3 * x) : Nat) := by
      rw [cast_sub _ p0]
      simp only [ecCurve] at he
      push_cast
      linear_combination he
    have := (ZMod.natCast_eq_natCast_iff _ _ _).mp this
    unfold Nat.ModEq at this
    rwa [Nat.mod_eq_of_lt hlt] at this

/-- The affine coordinates are those of the point. -/
theorem affine_iff {crv : Curve} {q : Point} {P : (ecCurve crv).Point} (hq : Rep (domain crv) q P) (x y : Nat) :
    (domain crv).affine q = some (x, y) ↔ OnAt P x y := by
  constructor
  · intro h
    exact hq.affine_some h
  · intro h
    cases ha : (domain crv).affine q with
    | none =>
      obtain ⟨-, -, hxy, rfl⟩ := h
      exact absurd (hq.affine_none ha) (Affine.Point.some_ne_zero _)
    | some v =>
      obtain ⟨x', y'⟩ := v
      obtain ⟨rfl, rfl⟩ := OnAt.inj h (hq.affine_some ha)
      rfl

/-- The private numbers that are accepted are those that belong to the point. -/
theorem priv_iff (crv : Curve) (x y d : Nat) : crypto.ecPrivOk crv x y d = true ↔ EcKey crv x y d := by
  show (decide (0 < d ∧ d < (domain crv).n) && ((domain crv).affine ((domain crv).mul d (domain crv).base) == some (x, y))) = true ↔ _
  rw [Bool.and_eq_true, decide_eq_true_eq, beq_iff_eq, affine_iff (rep_mul crv d)]
  constructor
  · rintro ⟨⟨h1, h2⟩, h3⟩
    exact ⟨h1, h2, _, G_at crv, h3⟩
  · rintro ⟨h1, h2, G', hG, h3⟩
    rw [OnAt.unique hG (G_at crv)] at h3
    exact ⟨⟨h1, h2⟩, h3⟩

/-- The signature with one secret number. -/
theorem with_numbers {crv : Curve} {d : Nat} {h : Hash} {m : Bytes} {k r s : Nat} (hk0 : 0 < k) (hk : k < (domain crv).n)
    (hs : ecdsaWith crv d h m k = (r, s)) :
    ∃ x y hxy, x < (domain crv).p ∧ k • G crv = .some (x : ZMod (domain crv).p) y hxy ∧ r = x % (domain crv).n ∧
      s < (domain crv).n ∧ (s : ZMod (domain crv).n) * k = (domain crv).digest h m + r * d := by
  unfold ecdsaWith at hs
  simp only [force_eq] at hs
  split at hs
  · rename_i ha
    have h0 := (rep_mul crv k).affine_none ha
    rw [← zero_nsmul (G crv), smul_eq] at h0
    exact absurd (by rw [h0]; simp) (cast_ne_zero hk0 hk)
  · rename_i x y ha
    obtain ⟨hx, -, hxy, he⟩ := (rep_mul crv k).affine_some ha
    simp only [Prod.mk.injEq] at hs
    obtain ⟨rfl, rfl⟩ := hs
    refine ⟨x, y, hxy, hx, he, rfl, Nat.mod_lt _ (order_prime crv).pos, ?_⟩
    rw [cast_mod']
    simp only [Nat.cast_mul, Nat.cast_add]
    linear_combination ((domain crv).digest h m + (x % (domain crv).n : Nat) * d : ZMod (domain crv).n) * inverse crv (cast_ne_zero hk0 hk)

/-- A signature without zeros is accepted. -/
theorem with_holds {crv : Curve} {x y d : Nat} (p : EcKey crv x y d) {h : Hash} {m : Bytes} {k r s : Nat} (hk0 : 0 < k)
    (hk : k < (domain crv).n) (hs : ecdsaWith crv d h m k = (r, s)) (hr0 : r ≠ 0) (hs0 : s ≠ 0) : ecdsaHolds crv x y h m r s = true := by
  obtain ⟨xk, yk, hxy, hxk, he, hr, hsn, heq⟩ := with_numbers hk0 hk hs
  obtain ⟨G', hG, hx, hy, hxyQ, hQ⟩ := p.point
  rw [OnAt.unique hG (G_at crv)] at hQ
  change (domain crv).curve.Nonsingular x y at hxyQ
  replace hQ : d • G crv = (.some (x : ZMod (domain crv).p) (y : ZMod (domain crv).p) hxyQ : (domain crv).curve.Point) := hQ
  have hrn : r < (domain crv).n := by rw [hr]; exact Nat.mod_lt _ (order_prime crv).pos
  unfold ecdsaHolds
  simp only [force_eq, Bool.and_eq_true, decide_eq_true_eq]
  refine ⟨⟨Nat.pos_of_ne_zero hr0, hrn, Nat.pos_of_ne_zero hs0, hsn⟩, ?_⟩
  have hw := inverse crv (cast_ne_zero (Nat.pos_of_ne_zero hs0) hsn)
  generalize powMod s ((domain crv).n - 2) (domain crv).n = w at hw ⊢
  have hrep := Rep.add (two_ne crv) (rep_mul crv ((domain crv).digest h m * w % (domain crv).n))
    (Rep.mul (two_ne crv) (rep_affine hxyQ) (r * w % (domain crv).n))
  have hsum : ((domain crv).digest h m * w % (domain crv).n) • G crv + (r * w % (domain crv).n) • Affine.Point.some (x : ZMod (domain crv).p) y hxyQ =
      k • G crv := by
    rw [← hQ, ← mul_nsmul', ← add_nsmul, smul_eq]
    simp only [Nat.cast_add, Nat.cast_mul, cast_mod']
    linear_combination (-w : ZMod (domain crv).n) * heq + (k : ZMod (domain crv).n) * hw
  rw [hsum] at hrep
  split
  · rename_i ha
    have h0 := hrep.affine_none ha
    rw [he] at h0
    exact absurd h0 (Affine.Point.some_ne_zero _)
  · rename_i v v' ha
    obtain ⟨hv, -, hvv, hP⟩ := hrep.affine_some ha
    rw [he, Affine.Point.some.injEq] at hP
    have : v = xk := by
      have := hP.1
      rw [ZMod.natCast_eq_natCast_iff] at this
      have := this.symm
      unfold Nat.ModEq at this
      rwa [Nat.mod_eq_of_lt hv, Nat.mod_eq_of_lt hxk] at this
    rw [this, hr]
    exact beq_self_eq_true _

theorem ofBits_take (l : List Bool) (k : Nat) : ofBits (l.take k) = ofBits l / 2 ^ (l.length - k) := by
  induction l using List.reverseRecOn with
  | nil => simp [ofBits]
  | append_singleton l b ih =>
    rw [ofBits_snoc, List.length_append, List.length_singleton]
    by_cases hk : k ≤ l.length
    · rw [List.take_append_of_le_length hk, ih, show l.length + 1 - k = (l.length - k) + 1 by omega, pow_succ', ← Nat.div_div_eq_div_mul]
      congr 1
      have := b.toNat_lt
      omega
    · rw [List.take_of_length_le (by simp; omega), ofBits_snoc, show l.length + 1 - k = 0 by omega, pow_zero, Nat.div_one]

theorem digest_eq (crv : Curve) (h : Hash) (m : Bytes) : (domain crv).digest h m = leftmost crv ((sha2 h).hash m) := by
  unfold Domain.digest leftmost
  rw [Nat.shiftRight_eq_div_pow, ofBits_take, ← number_bits, octetBits_length, hash_length]

/-- The signatures that are accepted with a point of the curve are the valid ones. -/
theorem holds_iff {crv : Curve} {x y : Nat} {Q : (ecCurve crv).Point} (hQ : OnAt Q x y) (h : Hash) (m : Bytes) (r s : Nat) :
    ecdsaHolds crv x y h m r s = true ↔ EcdsaValid crv x y h m r s := by
  have hQ' := hQ
  obtain ⟨-, -, hxy, hQe⟩ := hQ'
  have hrep (w : Nat) := Rep.add (two_ne crv) (rep_mul crv ((domain crv).digest h m * w % (domain crv).n))
    (Rep.mul (two_ne crv) (rep_affine (crv := crv) hxy) (r * w % (domain crv).n))
  rw [digest_eq] at hrep
  have n1 : 1 < (domain crv).n := (order_prime crv).one_lt
  unfold ecdsaHolds
  simp only [force_eq, Bool.and_eq_true, decide_eq_true_eq, digest_eq]
  constructor
  · rintro ⟨⟨h1, h2, h3, h4⟩, h5⟩
    have hw := inverse crv (cast_ne_zero h3 h4)
    generalize powMod s ((domain crv).n - 2) (domain crv).n = w at hw h5
    split at h5
    · cases h5
    · rename_i v v' ha
      refine ⟨h1, h2, h3, h4, _, G crv, Q, w, v, v', (digest_iff h m _).mpr rfl, G_at crv, hQ, ?_, ?_, beq_iff_eq.mp h5⟩
      · have : ((w * s : Nat) : ZMod (domain crv).n) = (1 : Nat) := by push_cast; exact hw
        have := (ZMod.natCast_eq_natCast_iff _ _ _).mp this
        unfold Nat.ModEq at this
        rwa [Nat.mod_eq_of_lt n1] at this
      · rw [hQe]
        exact (affine_iff (hrep w) v v').mp ha
  · rintro ⟨h1, h2, h3, h4, dig, G', Q', w, X, Y, hdig, hG, hQ2, hw, hX, hXr⟩
    rw [digest_iff] at hdig
    subst hdig
    rw [OnAt.unique hG (G_at crv), OnAt.unique hQ2 hQ] at hX
    refine ⟨⟨h1, h2, h3, h4⟩, ?_⟩
    have hwe : (powMod s ((domain crv).n - 2) (domain crv).n : ZMod (domain crv).n) = w := by
      have e1 := inverse crv (cast_ne_zero h3 h4)
      have e2 : (w * s : ZMod (domain crv).n) = 1 := by
        have := congrArg (Nat.cast : Nat → ZMod (domain crv).n) hw
        rw [cast_mod'] at this
        exact_mod_cast this
      exact mul_right_cancel₀ (cast_ne_zero h3 h4) (e1.trans e2.symm)
    have hmod (a : Nat) : a * powMod s ((domain crv).n - 2) (domain crv).n % (domain crv).n = a * w % (domain crv).n := by
      have : ((a * powMod s ((domain crv).n - 2) (domain crv).n : Nat) : ZMod (domain crv).n) = (a * w : Nat) := by
        rw [Nat.cast_mul, Nat.cast_mul, hwe]
      exact (ZMod.natCast_eq_natCast_iff _ _ _).mp this
    rw [hmod, hmod]
    rw [hQe] at hX
    rw [(affine_iff (hrep w) X Y).mpr hX]
    exact beq_iff_eq.mpr hXr

theorem p_lt (crv : Curve) : (domain crv).p < 2 * (domain crv).n := by cases crv <;> decide +kernel

theorem n_large (crv : Curve) : 10 ≤ (domain crv).n := by cases crv <;> decide +kernel

/-- The secret numbers that are drawn. -/
def secret (crv : Curve) (seed i : Nat) : Nat := (seed + i) % ((domain crv).n - 1) + 1

theorem secret_pos (crv : Curve) (seed i : Nat) : 0 < secret crv seed i := Nat.succ_pos _

theorem secret_lt (crv : Curve) (seed i : Nat) : secret crv seed i < (domain crv).n := by
  have h := n_large crv
  have := Nat.mod_lt (seed + i) (show 0 < (domain crv).n - 1 by omega)
  unfold secret
  omega

theorem secret_inj {crv : Curve} {seed i j : Nat} (hi : i < 9) (hj : j < 9) (h : secret crv seed i = secret crv seed j) : i = j := by
  have hn := n_large crv
  unfold secret at h
  have h' : (seed + i) % ((domain crv).n - 1) = (seed + j) % ((domain crv).n - 1) := by omega
  have := Nat.ModEq.add_left_cancel' seed h'
  unfold Nat.ModEq at this
  rwa [Nat.mod_eq_of_lt (by omega), Nat.mod_eq_of_lt (by omega)] at this

/-- A secret number that leads to a zero leads to a point with one of four first coordinates. -/
theorem bad_secret {crv : Curve} {d : Nat} (hd0 : 0 < d) (hd : d < (domain crv).n) {h : Hash} {m : Bytes} {k r s : Nat} (hk0 : 0 < k)
    (hk : k < (domain crv).n) (hs : ecdsaWith crv d h m k = (r, s)) (hz : r = 0 ∨ s = 0) (ρ : Nat) (hρ : ρ < (domain crv).n)
    (hρd : (ρ * d + (domain crv).digest h m : ZMod (domain crv).n) = 0) :
    ∃ x y hxy, x ∈ ({0, (domain crv).n, ρ, ρ + (domain crv).n} : Finset Nat) ∧ k • G crv = .some (x : ZMod (domain crv).p) y hxy := by
  obtain ⟨x, y, hxy, hx, he, hr, hsn, heq⟩ := with_numbers hk0 hk hs
  refine ⟨x, y, hxy, ?_, he⟩
  have hp := p_lt crv
  have hmod : x % (domain crv).n = 0 ∨ x % (domain crv).n = ρ := by
    rcases hz with h0 | h0
    · exact Or.inl (by rw [← hr, h0])
    · right
      rw [← hr]
      have hr' : r < (domain crv).n := by rw [hr]; exact Nat.mod_lt _ (order_prime crv).pos
      rw [h0] at heq
      have : ((r : ZMod (domain crv).n) - ρ) * d = 0 := by
        push_cast at heq
        linear_combination -heq - hρd
      rcases mul_eq_zero.mp this with h1 | h1
      · have := (ZMod.natCast_eq_natCast_iff _ _ _).mp (sub_eq_zero.mp h1)
        unfold Nat.ModEq at this
        rwa [Nat.mod_eq_of_lt hr', Nat.mod_eq_of_lt hρ] at this
      · exact absurd h1 (cast_ne_zero hd0 hd)
  have hdiv : x / (domain crv).n < 2 := by
    rw [Nat.div_lt_iff_lt_mul (order_prime crv).pos]
    omega
  have hx' := Nat.div_add_mod x (domain crv).n
  have hd2 : x / (domain crv).n = 0 ∨ x / (domain crv).n = 1 := by
    generalize x / (domain crv).n = t at hdiv
    omega
  simp only [Finset.mem_insert, Finset.mem_singleton]
  rcases hmod with h1 | h1 <;> rw [h1] at hx' <;> rcases hd2 with h2 | h2 <;>
    rw [h2] at hx' <;> omega

/-- One of nine secret numbers leads to no zero. -/
theorem good_secret {crv : Curve} {d : Nat} (hd0 : 0 < d) (hd : d < (domain crv).n) (h : Hash) (m : Bytes) (seed : Nat) :
    ∃ i < 9, ∃ r s, ecdsaWith crv d h m (secret crv seed i) = (r, s) ∧ r ≠ 0 ∧ s ≠ 0 := by
  by_contra hc
  push Not at hc
  let ρ := (-(powMod d ((domain crv).n - 2) (domain crv).n : ZMod (domain crv).n) * (domain crv).digest h m).val
  have hρ : ρ < (domain crv).n := ZMod.val_lt _
  have hρd : (ρ * d + (domain crv).digest h m : ZMod (domain crv).n) = 0 := by
    have := inverse crv (cast_ne_zero hd0 hd)
    simp only [ρ, ZMod.natCast_val, ZMod.cast_id', id]
    linear_combination (-(domain crv).digest h m : ZMod (domain crv).n) * this
  have key : ∀ i, i < 9 → ∃ x y hxy, x ∈ ({0, (domain crv).n, ρ, ρ + (domain crv).n} : Finset Nat) ∧
      secret crv seed i • G crv = .some (x : ZMod (domain crv).p) y hxy := by
    intro i hi
    refine bad_secret hd0 hd (secret_pos _ _ _) (secret_lt _ _ _) (Prod.mk.eta).symm ?_ ρ hρ hρd
    by_contra h0
    push Not at h0
    exact h0.2 (hc i hi _ _ (Prod.mk.eta).symm h0.1)
  classical
  let f : Nat → Nat := fun i => if hi : i < 9 then (key i hi).choose else 0
  have hf : ∀ i (hi : i < 9), f i ∈ ({0, (domain crv).n, ρ, ρ + (domain crv).n} : Finset Nat) ∧
      ∃ y hxy, secret crv seed i • G crv = .some (f i : ZMod (domain crv).p) y hxy := by
    intro i hi
    obtain ⟨y, hxy, h1, h2⟩ := (key i hi).choose_spec
    simp only [f, dif_pos hi]
    exact ⟨h1, y, hxy, h2⟩
  have hcard : ({0, (domain crv).n, ρ, ρ + (domain crv).n} : Finset Nat).card ≤ 4 := Finset.card_le_four
  obtain ⟨x, -, hx⟩ := Finset.exists_lt_card_fiber_of_mul_lt_card_of_maps_to (s := Finset.range 9)
    (t := {0, (domain crv).n, ρ, ρ + (domain crv).n}) (f := f) (n := 2) (fun i hi => (hf i (Finset.mem_range.mp hi)).1)
    (by rw [Finset.card_range]; omega)
  obtain ⟨a, ha, b, hb, e, he, hab, hae, hbe⟩ := Finset.two_lt_card.mp hx
  simp only [Finset.mem_filter, Finset.mem_range] at ha hb he
  have same : ∀ i j, i < 9 → j < 9 → f i = x → f j = x → i ≠ j →
      secret crv seed i • G crv = -(secret crv seed j • G crv) := by
    intro i j hi hj hix hjx hij
    obtain ⟨-, y, hxy, h1⟩ := hf i hi
    obtain ⟨-, y', hxy', h1'⟩ := hf j hj
    rcases (Affine.Point.X_eq_iff (h₁ := hxy) (h₂ := hxy')).mp (by rw [hix, hjx]) with h2 | h2
    · rw [← h1, ← h1', smul_eq] at h2
      have := (ZMod.natCast_eq_natCast_iff _ _ _).mp h2
      unfold Nat.ModEq at this
      rw [Nat.mod_eq_of_lt (secret_lt _ _ _), Nat.mod_eq_of_lt (secret_lt _ _ _)] at this
      exact absurd (secret_inj hi hj this) hij
    · rw [h1, h1', h2]
  have h1 := same a b ha.1 hb.1 ha.2 hb.2 hab
  have h2 := same a e ha.1 he.1 ha.2 he.2 hae
  have h3 : secret crv seed b • G crv = secret crv seed e • G crv := neg_injective (h1.symm.trans h2)
  rw [smul_eq] at h3
  have := (ZMod.natCast_eq_natCast_iff _ _ _).mp h3
  unfold Nat.ModEq at this
  rw [Nat.mod_eq_of_lt (secret_lt _ _ _), Nat.mod_eq_of_lt (secret_lt _ _ _)] at this
  exact hbe (secret_inj hb.1 he.1 this)

theorem tries_good {crv : Curve} {d : Nat} {h : Hash} {m : Bytes} : ∀ (fuel seed i : Nat), i < fuel →
    (∃ r s, ecdsaWith crv d h m (secret crv seed i) = (r, s) ∧ r ≠ 0 ∧ s ≠ 0) →
    ∃ j r s, ecdsaTries crv d h m fuel seed = (r, s) ∧ ecdsaWith crv d h m (secret crv seed j) = (r, s) ∧ r ≠ 0 ∧ s ≠ 0
  | fuel + 1, seed, i, hi, hg => by
    cases he : ecdsaWith crv d h m (secret crv seed 0) with
    | mk r s =>
      have e0 : ecdsaTries crv d h m (fuel + 1) seed =
          if r = 0 ∨ s = 0 then ecdsaTries crv d h m fuel (seed + 1) else (r, s) := by
        have : secret crv seed 0 = seed % ((domain crv).n - 1) + 1 := rfl
        rw [this] at he
        conv => lhs; unfold ecdsaTries
        rw [he]
      by_cases hz : r = 0 ∨ s = 0
      · cases i with
        | zero =>
          obtain ⟨r', s', h1, h2, h3⟩ := hg
          rw [he] at h1
          cases h1
          rcases hz with h | h
          · exact absurd h h2
          · exact absurd h h3
        | succ i =>
          have hsec : ∀ j, secret crv (seed + 1) j = secret crv seed (j + 1) := by
            intro j
            unfold secret
            rw [show seed + 1 + j = seed + (j + 1) by omega]
          obtain ⟨j, r', s', h1, h2, h3⟩ := tries_good fuel (seed + 1) i (by omega) (by rw [hsec]; exact hg)
          exact ⟨j + 1, r', s', by rw [e0, if_pos hz, h1], by rw [← hsec]; exact h2, h3⟩
      · rw [if_neg hz] at e0
        push Not at hz
        exact ⟨0, r, s, e0, he, hz⟩

/-- What ECDSA signs with the private number, it accepts with the public numbers. -/
theorem ecdsaSign_ok {crv : Curve} {x y d : Nat} (p : EcKey crv x y d) (h : Hash) (m : Bytes) (seed : Nat) :
    ecdsaHolds crv x y h m (ecdsaSign crv d h m seed).1 (ecdsaSign crv d h m seed).2 = true := by
  obtain ⟨i, hi, hg⟩ := good_secret p.pos p.lt h m seed
  obtain ⟨j, r, s, h1, h2, h3, h4⟩ := tries_good 9 seed i hi hg
  have : ecdsaSign crv d h m seed = (r, s) := h1
  rw [this]
  exact with_holds p (secret_pos _ _ _) (secret_lt _ _ _) h2 h3 h4

end Psion.Real
