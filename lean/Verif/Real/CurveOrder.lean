import Verif.Real.EcdsaLemmas
import Mathlib.GroupTheory.Perm.Cycle.Type
import Mathlib.GroupTheory.SpecificGroups.Cyclic

/-!
# The curves have `n` points

The base point has order `n`, and there are at most two points for every first coordinate, so there are `n` or `2 n` points. In the second
case there would be a point of order two, that is a root of `x³ - 3x + b`. There is none: a root would be fixed by the `p`-th power, and
the difference of `x ^ p` and `x` has an inverse modulo that polynomial.
-/

namespace Psion.Real

open Psion Psion.Spec WeierstrassCurve

/-- Product of polynomials of degree below three modulo `x³ - 3x - nb`. -/
def cubMul (p nb : Nat) (u v : Nat × Nat × Nat) (k : Nat × Nat × Nat → Nat × Nat × Nat) : Nat × Nat × Nat :=
  force ((u.1 * v.1 + nb * (u.2.1 * v.2.2 + u.2.2 * v.2.1)) % p) fun a =>
  force ((u.1 * v.2.1 + u.2.1 * v.1 + 3 * (u.2.1 * v.2.2 + u.2.2 * v.2.1) + nb * (u.2.2 * v.2.2)) % p) fun b =>
  force ((u.1 * v.2.2 + u.2.1 * v.2.1 + u.2.2 * v.1 + 3 * (u.2.2 * v.2.2)) % p) fun c => k (a, b, c)

/-- `acc * u ^ e`, for `e` below `2 ^ fuel`. -/
def cubPow (p nb : Nat) : Nat → Nat × Nat × Nat → Nat → Nat × Nat × Nat → Nat × Nat × Nat
  | 0, _, _, acc => acc
  | fuel + 1, u, e, acc =>
    force (e / 2) fun e' =>
    if e % 2 = 1 then cubMul p nb acc u fun acc' => cubMul p nb u u fun u' => cubPow p nb fuel u' e' acc'
    else cubMul p nb u u fun u' => cubPow p nb fuel u' e' acc

/-- Value of the polynomial. -/
def cubAt {F : Type} [CommRing F] (x : F) (u : Nat × Nat × Nat) : F := u.1 + u.2.1 * x + u.2.2 * x ^ 2

theorem cubMul_id (p nb : Nat) (u v : Nat × Nat × Nat) (k : Nat × Nat × Nat → Nat × Nat × Nat) :
    cubMul p nb u v k = k (cubMul p nb u v id) := by
  unfold cubMul
  simp only [force_eq, id]

theorem cubAt_mul {p nb : Nat} {x : ZMod p} (hx : x ^ 3 = 3 * x + nb) (u v : Nat × Nat × Nat) :
    cubAt x (cubMul p nb u v id) = cubAt x u * cubAt x v := by
  unfold cubMul cubAt
  simp only [force_eq, id, cast_mod', Nat.cast_add, Nat.cast_mul]
  push_cast
  linear_combination (-(u.2.1 * v.2.2 + u.2.2 * v.2.1 : ZMod p) - u.2.2 * v.2.2 * x) * hx

theorem cubAt_pow {p nb : Nat} {x : ZMod p} (hx : x ^ 3 = 3 * x + nb) : ∀ (fuel : Nat) (u : Nat × Nat × Nat) (e : Nat) (acc : Nat × Nat × Nat),
    e < 2 ^ fuel → cubAt x (cubPow p nb fuel u e acc) = cubAt x acc * cubAt x u ^ e
  | 0, u, e, acc, he => by
    have : e = 0 := by omega
    subst this
    rw [pow_zero, mul_one]
    rfl
  | fuel + 1, u, e, acc, he => by
    have he' : e / 2 < 2 ^ fuel := by omega
    unfold cubPow
    simp only [force_eq]
    split
    · rename_i h1
      rw [cubMul_id, cubMul_id, cubAt_pow hx fuel _ _ _ he', cubAt_mul hx, cubAt_mul hx]
      conv => rhs; rw [show e = 1 + 2 * (e / 2) by omega]
      rw [pow_add, pow_mul, pow_one, ← pow_two, mul_assoc]
    · rename_i h1
      rw [cubMul_id, cubAt_pow hx fuel _ _ _ he', cubAt_mul hx]
      conv => rhs; rw [show e = 2 * (e / 2) by omega]
      rw [pow_mul, ← pow_two]

/-- The inverse of `x ^ p - x`. -/
def rootWitness : Curve → Nat × Nat × Nat
  | .p256 =>
    (76626890310466861426869089647039036757962535851890885406097439786770458211455,
      74462945259064871768191128030512052509059297803194871526163573358218695456204,
      34768139465301476436978405170953382516735956999154666452188405812258086013549)
  | .p384 =>
    (23037766613497683937702734290281044719364893268180251583910224888989381657771069200037813904257325918671976092329602,
      8235438212423615602427778915669574859600037698862346933589434399495169446996583974901273360826717582835190849638831,
      12157362177932134139146813183752135342286725243554133716818896354380897714709611791313184492360272402950851405460538)
  | .p521 =>
    (5556850081864827842302249485475501585472702946772625307642304195702912034363837867267334216347521692509406916620096684956176894315447091116492501000392161958,
      2592645775458497527836362227091103884154287512470494672274301275565663408730650270660448980645397363205839490313252565391972848223674401530161387302727484004,
      3919380404691066388712376322317341026252002696138380915147944189379687824774581460974855590730258562532022938584569429027963361353339635641909491533809725330)

/-- The `p`-th power of `x`, less `x`. -/
def frobenius (crv : Curve) : Nat × Nat × Nat :=
  let c := domain crv
  match cubPow c.p (c.p - c.b) 521 (0, 1, 0) c.p (1, 0, 0) with
  | (a, b, e) => (a, b + (c.p - 1), e)

theorem witness_ok (crv : Curve) :
    cubMul (domain crv).p ((domain crv).p - (domain crv).b) (rootWitness crv) (frobenius crv) id = (1, 0, 0) := by
  cases crv <;> decide +kernel

theorem p_bits (crv : Curve) : (domain crv).p < 2 ^ 521 := by cases crv <;> decide +kernel

theorem b_lt (crv : Curve) : (domain crv).b < (domain crv).p := by cases crv <;> decide +kernel

/-- The polynomial of the curve has no root. -/
theorem no_root (crv : Curve) (x : ZMod (domain crv).p) : x ^ 3 - 3 * x + (domain crv).b ≠ 0 := by
  intro h
  have hx : x ^ 3 = 3 * x + ((domain crv).p - (domain crv).b : Nat) := by
    rw [Nat.cast_sub (b_lt crv).le, ZMod.natCast_self]
    linear_combination h
  have hw := cubAt_mul hx (rootWitness crv) (frobenius crv)
  have hf : cubAt x (frobenius crv) = 0 := by
    have h1 := cubAt_pow hx 521 (0, 1, 0) (domain crv).p (1, 0, 0) (p_bits crv)
    have h2 : cubAt x (0, 1, 0) = x := by simp [cubAt]
    have h3 : cubAt x (1, 0, 0) = (1 : ZMod (domain crv).p) := by simp [cubAt]
    rw [h2, h3, ZMod.pow_card, one_mul] at h1
    unfold frobenius
    simp only
    generalize cubPow (domain crv).p ((domain crv).p - (domain crv).b) 521 (0, 1, 0) (domain crv).p (1, 0, 0) = g at h1
    unfold cubAt at h1 ⊢
    simp only [Nat.cast_add]
    rw [Nat.cast_sub (field_prime crv).one_le, ZMod.natCast_self]
    push_cast
    linear_combination h1
  rw [witness_ok, hf, mul_zero] at hw
  simp [cubAt] at hw

/-- No point has second coordinate zero. -/
theorem y_pos {crv : Curve} {P : (ecCurve crv).Point} {x y : Nat} (h : OnAt P x y) : 0 < y := by
  obtain ⟨-, -, hxy, -⟩ := h
  rcases Nat.eq_zero_or_pos y with rfl | h
  · exfalso
    have he := (Affine.equation_iff _ _).mp hxy.1
    simp only [ecCurve, Nat.cast_zero] at he
    exact no_root crv x (by linear_combination -he)
  · exact h

/-- There is no point of order two. -/
theorem no_two (crv : Curve) (P : (domain crv).curve.Point) (h : P + P = 0) : P = 0 := by
  cases P with
  | zero => rfl
  | some x y hxy =>
    exfalso
    by_cases hy : y = 0
    · have he := (Affine.equation_iff _ _).mp hxy.1
      simp only [Domain.curve, hy] at he
      exact no_root crv x (by linear_combination -he)
    · have hne : y ≠ (domain crv).curve.negY x y := by
        rw [negY_eq]
        intro e
        have : 2 * y = 0 := by linear_combination e
        rcases mul_eq_zero.mp this with h | h
        · exact two_ne crv h
        · exact hy h
      rw [Affine.Point.add_self_of_Y_ne hne] at h
      exact Affine.Point.some_ne_zero _ h

/-- The first coordinate of a point. -/
def firstCoordinate {crv : Curve} : (domain crv).curve.Point → Option (ZMod (domain crv).p)
  | .zero => none
  | .some x _ _ => some x

theorem first_eq {crv : Curve} {P Q : (domain crv).curve.Point} (h : firstCoordinate P = firstCoordinate Q) : P = Q ∨ P = -Q := by
  cases P with
  | zero =>
    cases Q with
    | zero => exact Or.inl rfl
    | some => cases h
  | some x y hxy =>
    cases Q with
    | zero => cases h
    | some x' y' hxy' => exact Affine.Point.X_eq_iff.mp (Option.some.inj h)

instance (crv : Curve) : Finite (domain crv).curve.Point :=
  Finite.of_injective (fun P : (domain crv).curve.Point => match P with
    | .zero => (none : Option (ZMod (domain crv).p × ZMod (domain crv).p))
    | .some x y _ => some (x, y)) (by
      intro P Q h
      cases P <;> cases Q <;> simp_all)

theorem card_le (crv : Curve) : Nat.card (domain crv).curve.Point ≤ 2 * ((domain crv).p + 1) := by
  classical
  have := Fintype.ofFinite (domain crv).curve.Point
  rw [Nat.card_eq_fintype_card, ← Finset.card_univ]
  have hc : (Finset.univ : Finset (Option (ZMod (domain crv).p))).card = (domain crv).p + 1 := by
    rw [Finset.card_univ, Fintype.card_option, ZMod.card]
  rw [← hc]
  refine Finset.card_le_mul_card_image_of_maps_to (f := firstCoordinate) (fun _ _ => Finset.mem_univ _) 2 ?_
  intro b _
  by_contra hgt
  obtain ⟨P, hP, Q, hQ, R, hR, h1, h2, h3⟩ := Finset.two_lt_card.mp (not_le.mp hgt)
  simp only [Finset.mem_filter, Finset.mem_univ, true_and] at hP hQ hR
  have e1 := (first_eq (hP.trans hQ.symm)).resolve_left h1
  have e2 := (first_eq (hP.trans hR.symm)).resolve_left h2
  exact h3 (neg_injective (e1.symm.trans e2))

theorem three_n (crv : Curve) : 2 * ((domain crv).p + 1) < 3 * (domain crv).n := by cases crv <;> decide +kernel

/-- The number of points is the order of the base point. -/
theorem card_points (crv : Curve) : Nat.card (domain crv).curve.Point = (domain crv).n := by
  have hd : (domain crv).n ∣ Nat.card (domain crv).curve.Point := by
    rw [← order crv]
    exact addOrderOf_dvd_natCard _
  obtain ⟨m, hm⟩ := hd
  have hle := card_le crv
  have h3 := three_n crv
  have hpos : 0 < Nat.card (domain crv).curve.Point := Nat.card_pos
  have n0 := (order_prime crv).pos
  have hm3 : m < 3 := by
    by_contra hc
    have := Nat.mul_le_mul_left (domain crv).n (show 3 ≤ m by omega)
    omega
  have hm0 : m ≠ 0 := by
    rintro rfl
    omega
  have hm2 : m ≠ 2 := by
    rintro rfl
    have : Fact (Nat.Prime 2) := ⟨Nat.prime_two⟩
    obtain ⟨P, hP⟩ := exists_prime_addOrderOf_dvd_card' 2 (G := (domain crv).curve.Point) (by rw [hm]; exact Dvd.intro_left _ rfl)
    have h0 : P + P = 0 := by rw [← two_nsmul, ← hP]; exact addOrderOf_nsmul_eq_zero P
    rw [no_two crv P h0, addOrderOf_zero] at hP
    omega
  have : m = 1 := by omega
  rw [hm, this, mul_one]

/-- `n` times a point is the point at infinity. -/
theorem n_smul (crv : Curve) (Q : (domain crv).curve.Point) : (domain crv).n • Q = 0 := by
  rw [← card_points crv]
  exact card_nsmul_eq_zero'

/-- Every point is a multiple of the base point. -/
theorem exists_smul (crv : Curve) (Q : (domain crv).curve.Point) : ∃ d < (domain crv).n, d • G crv = Q := by
  have : Fact (domain crv).n.Prime := ⟨order_prime crv⟩
  have hG : G crv ≠ 0 := Affine.Point.some_ne_zero _
  have hmem := mem_multiples_of_prime_card (card_points crv) hG (g' := Q)
  obtain ⟨k, hk⟩ := hmem
  refine ⟨k % (domain crv).n, Nat.mod_lt _ (order_prime crv).pos, ?_⟩
  rw [← order crv, mod_addOrderOf_nsmul]
  exact hk

theorem smul_neg_of_sum {crv : Curve} (Q : (ecCurve crv).Point) {a b : Nat} (h : (domain crv).n ∣ a + b) : b • Q = -(a • Q) := by
  rw [eq_neg_iff_add_eq_zero, ← add_nsmul, add_comm]
  obtain ⟨k, hk⟩ := h
  rw [hk, mul_nsmul, show (domain crv).n • Q = 0 from n_smul crv Q, nsmul_zero]

/-- With `(r, s)` the pair `(r, n - s)` is a valid signature. -/
theorem valid_neg {crv : Curve} {x y : Nat} {h : Hash} {m : Bytes} {r s : Nat} (hv : EcdsaValid crv x y h m r s) :
    EcdsaValid crv x y h m r ((domain crv).n - s) := by
  obtain ⟨h1, h2, h3, h4, dig, G', Q, w, X, Y, hdig, hG, hQ, hw, hX, hXr⟩ := hv
  have n1 : 1 < (domain crv).n := (order_prime crv).one_lt
  have n0 : 0 < (domain crv).n := (order_prime crv).pos
  obtain ⟨w', hw'⟩ : ∃ w', w' + w % (domain crv).n = (domain crv).n := ⟨(domain crv).n - w % (domain crv).n, Nat.sub_add_cancel (Nat.mod_lt _ n0).le⟩
  have hcast : (w' : ZMod (domain crv).n) = -w := by
    have := congrArg (Nat.cast : Nat → ZMod (domain crv).n) hw'
    rw [Nat.cast_add, cast_mod', ZMod.natCast_self] at this
    linear_combination this
  have hmod (a : Nat) : (domain crv).n ∣ a * w % (domain crv).n + a * w' % (domain crv).n := by
    rw [← ZMod.natCast_eq_zero_iff, Nat.cast_add, cast_mod', cast_mod', Nat.cast_mul, Nat.cast_mul, hcast]
    ring
  refine ⟨h1, h2, by omega, by omega, dig, G', Q, w', X, ((domain crv).p - Y) % (domain crv).p, hdig, hG, hQ, ?_, ?_, hXr⟩
  · have : ((w' * ((domain crv).n - s) : Nat) : ZMod (domain crv).n) = (1 : Nat) := by
      have e := congrArg (Nat.cast : Nat → ZMod (domain crv).n) hw
      rw [cast_mod'] at e
      push_cast [h4.le] at e ⊢
      rw [hcast, ZMod.natCast_self]
      linear_combination e
    have := (ZMod.natCast_eq_natCast_iff _ _ _).mp this
    unfold Nat.ModEq at this
    rwa [Nat.mod_eq_of_lt n1] at this
  · rw [smul_neg_of_sum G' (hmod _), smul_neg_of_sum Q (hmod _), ← neg_add]
    obtain ⟨hXp, hYp, hxy, he⟩ := hX
    refine ⟨hXp, Nat.mod_lt _ (field_prime crv).pos, ?_⟩
    have hy : ((((domain crv).p - Y) % (domain crv).p : Nat) : ZMod (domain crv).p) = (domain crv).curve.negY X Y := by
      rw [cast_mod', Nat.cast_sub hYp.le, ZMod.natCast_self, negY_eq, zero_sub]
    rw [hy]
    refine ⟨(Affine.nonsingular_neg _ _).mpr hxy, ?_⟩
    exact (congrArg Neg.neg he).trans (Affine.Point.neg_some hxy)

theorem n_odd (crv : Curve) : (domain crv).n % 2 = 1 := by cases crv <;> decide +kernel

theorem derSig_inj {crv : Curve} {r s s' : Nat} (hr : r < (domain crv).n) (hs : s < (domain crv).n) (hs' : s' < (domain crv).n)
    (h : derSig r s = derSig r s') : s = s' := by
  have b {a : Nat} (ha : a < (domain crv).n) := bits_lt (lt_trans ha (order_bits crv))
  have h1 := readSig_derSig r s (b hr) (b hs)
  have h2 := readSig_derSig r s' (b hr) (b hs')
  rw [h, h2] at h1
  cases h1
  rfl

/-- Only one signature is valid under RSASSA-PKCS1-v1_5. -/
theorem pkcs_unique {n e : Nat} {r : RsaPriv} (k : RsaKey n e r) {h : Hash} {m sig sig' : Bytes} (h1 : pkcsHolds n e h m sig = true)
    (h2 : pkcsHolds n e h m sig' = true) : sig = sig' := by
  have hn := k.ne_zero
  have hsz : n < 256 ^ modulusSize n := by
    refine lt_of_lt_of_le (lt_bits n) ?_
    rw [show (256 : Nat) = 2 ^ 8 by rfl, ← pow_mul]
    apply Nat.pow_le_pow_right (by decide)
    unfold modulusSize
    omega
  have plt (a : Nat) : powMod a e n < n := by rw [powMod_eq]; exact Nat.mod_lt _ (Nat.pos_of_ne_zero hn)
  unfold pkcsHolds at h1 h2
  cases he : pkcsEncode (modulusSize n) h m with
  | none => rw [he] at h1; split at h1 <;> simp_all
  | some em =>
    rw [he] at h1 h2
    unfold rsaPublic at h1 h2
    split at h1
    · rename_i v em' hv he'
      cases he'
      split at hv
      · rename_i hc
        cases hv
        split at h2
        · rename_i v' em'' hv' he''
          cases he''
          split at hv'
          · rename_i hc'
            cases hv'
            have heq := (beq_iff_eq.mp h1).trans (beq_iff_eq.mp h2).symm
            rw [octetsOf_eq, octetsOf_eq] at heq
            have hnum := congrArg number heq
            rw [number_octets _ _ (lt_trans (plt _) hsz), number_octets _ _ (lt_trans (plt _) hsz)] at hnum
            have back (a : Nat) (ha : a < n) : powMod (powMod a e n) r.d n = a := by
              have := rsa_inverse k a ha
              rw [powMod_eq, powMod_eq, ← Nat.pow_mod, ← pow_mul, mul_comm] at this
              rw [powMod_eq, powMod_eq, ← Nat.pow_mod, ← pow_mul]
              exact this
            have hsame : number sig = number sig' := by
              rw [← back _ hc.2, ← back _ hc'.2, hnum]
            rw [← octets_number sig, ← octets_number sig', hc.1, hc'.1, hsame]
          · cases hv'
        · cases h2
      · cases hv
    · cases h1

end Psion.Real
