import Verif.Real.Float
import Verif.Py.JsonGrammar

/-!
# Lemmas about floats
-/

namespace Psion.Real

open Psion Psion.Spec

/-! ## The numbers of the floats -/

theorem units_succ (c : Nat) : units (c + 1) = units c + 2 ^ (c / 2 ^ 52 - 1) := by
  unfold units
  have hd := Nat.div_add_mod c (2 ^ 52)
  have hr := Nat.mod_lt c (show 0 < 2 ^ 52 by decide)
  generalize hh : c / 2 ^ 52 = h at *
  generalize hrr : c % 2 ^ 52 = r at *
  by_cases hl : r + 1 < 2 ^ 52
  · have h1 : (c + 1) / 2 ^ 52 = h := by omega
    have h2 : (c + 1) % 2 ^ 52 = r + 1 := by omega
    rw [h1, h2]
    split
    · rw [Nat.add_mul, Nat.one_mul]
    · rw [← Nat.add_assoc, Nat.add_mul _ 1, Nat.one_mul]
  · have h1 : (c + 1) / 2 ^ 52 = h + 1 := by omega
    have h2 : (c + 1) % 2 ^ 52 = 0 := by omega
    have h3 : r = 2 ^ 52 - 1 := by omega
    rw [h1, h2, if_neg (by omega), h3, Nat.add_zero, Nat.add_sub_cancel]
    cases h with
    | zero => decide
    | succ n =>
      have h4 : 2 ^ (n + 1) = 2 ^ n * 2 := Nat.pow_succ _ _
      rw [if_neg (by omega), Nat.add_sub_cancel, h4]
      generalize 2 ^ n = z
      omega

theorem units_lt {a b : Nat} (h : a < b) : units a < units b := by
  induction h with
  | refl => rw [units_succ]; have := Nat.two_pow_pos (a / 2 ^ 52 - 1); omega
  | step _ ih => rw [units_succ]; exact Nat.lt_of_lt_of_le ih (Nat.le_add_right _ _)

theorem units_le {a b : Nat} (h : a ≤ b) : units a ≤ units b := by
  rcases Nat.lt_or_eq_of_le h with h | rfl
  · exact Nat.le_of_lt (units_lt h)
  · exact Nat.le_refl _

/-- The step below a float, and so every step around it, is at least its 2^53rd part. -/
theorem units_step (c : Nat) : units (c + 1) ≤ 2 ^ 53 * (units (c + 1) - units c) := by
  rw [units_succ, Nat.add_sub_cancel_left, ← units_succ]
  unfold units
  have hd := Nat.div_add_mod c (2 ^ 52)
  have hr := Nat.mod_lt c (show 0 < 2 ^ 52 by decide)
  generalize hh : c / 2 ^ 52 = h at *
  generalize hrr : c % 2 ^ 52 = r at *
  by_cases hl : r + 1 < 2 ^ 52
  · have h1 : (c + 1) / 2 ^ 52 = h := by omega
    have h2 : (c + 1) % 2 ^ 52 = r + 1 := by omega
    rw [h1, h2]
    apply Nat.mul_le_mul_right
    split <;> omega
  · have h1 : (c + 1) / 2 ^ 52 = h + 1 := by omega
    have h2 : (c + 1) % 2 ^ 52 = 0 := by omega
    rw [h1, h2, if_neg (by omega), Nat.add_zero, Nat.add_sub_cancel]
    cases h with
    | zero => decide
    | succ n =>
      have h4 : 2 ^ (n + 1) = 2 ^ n * 2 := Nat.pow_succ _ _
      rw [Nat.add_sub_cancel, h4]
      generalize 2 ^ n = z
      omega

theorem units_gap {c c' : Nat} (h : c' ≠ c) : units c ≤ 2 ^ 53 * apart (units c') (units c) := by
  unfold apart
  by_cases hl : c' < c
  · obtain ⟨n, rfl⟩ : ∃ n, c = n + 1 := ⟨c - 1, by omega⟩
    have h1 := units_step n
    have h2 := units_le (show c' ≤ n by omega)
    have h3 := units_lt (show n < n + 1 by omega)
    have : 2 ^ 53 * (units (n + 1) - units n) ≤ 2 ^ 53 * (units c' - units (n + 1) + (units (n + 1) - units c')) :=
      Nat.mul_le_mul_left _ (by omega)
    omega
  · have h1 := units_step c
    have h2 := units_le (show c + 1 ≤ c' by omega)
    have h3 := units_lt (show c < c + 1 by omega)
    have : 2 ^ 53 * (units (c + 1) - units c) ≤ 2 ^ 53 * (units c' - units c + (units c - units c')) :=
      Nat.mul_le_mul_left _ (by omega)
    omega

/-- The floats of one exponent and the next one. -/
theorem units_code {k m : Nat} (hm : m ≤ 2 ^ 53) (hk : k = 0 ∨ 2 ^ 52 ≤ m) : units (k * 2 ^ 52 + m) = m * 2 ^ k := by
  unfold units
  by_cases h1 : m < 2 ^ 52
  · have : k = 0 := by omega
    subst this
    rw [show (0 * 2 ^ 52 + m) / 2 ^ 52 = 0 by omega, if_pos rfl, show (0 * 2 ^ 52 + m) % 2 ^ 52 = m by omega]
  · by_cases h2 : m = 2 ^ 53
    · subst h2
      rw [show (k * 2 ^ 52 + 2 ^ 53) / 2 ^ 52 = k + 2 by omega, if_neg (by omega), show (k * 2 ^ 52 + 2 ^ 53) % 2 ^ 52 = 0 by omega,
        show k + 2 - 1 = k + 1 by omega, show 2 ^ (k + 1) = 2 ^ k * 2 from Nat.pow_succ _ _]
      generalize 2 ^ k = z
      omega
    · rw [show (k * 2 ^ 52 + m) / 2 ^ 52 = k + 1 by omega, if_neg (by omega), show (k * 2 ^ 52 + m) % 2 ^ 52 = m - 2 ^ 52 by omega,
        show 2 ^ 52 + (m - 2 ^ 52) = m by omega, Nat.add_sub_cancel]

/-! ## Rounding -/

theorem halfEven_cases (a b : Nat) (hb : 0 < b) :
    ∃ q, q * b ≤ a ∧ a < (q + 1) * b ∧ (halfEven a b = q ∧ (2 * (a - q * b) < b ∨ 2 * (a - q * b) = b ∧ q % 2 = 0) ∨
      halfEven a b = q + 1 ∧ (b < 2 * (a - q * b) ∨ 2 * (a - q * b) = b ∧ (q + 1) % 2 = 0)) := by
  have h1 := Nat.div_add_mod a b
  have h2 := Nat.mod_lt a hb
  rw [Nat.mul_comm] at h1
  refine ⟨a / b, by omega, by rw [Nat.add_mul]; omega, ?_⟩
  have h3 : a - a / b * b = a % b := by omega
  rw [h3]
  unfold halfEven
  split
  · exact Or.inl ⟨rfl, Or.inl (by omega)⟩
  · split
    · exact Or.inr ⟨rfl, Or.inl (by omega)⟩
    · have : a / b % 2 = 0 ∨ a / b % 2 = 1 := by omega
      rcases this with h | h
      · exact Or.inl ⟨by omega, Or.inr ⟨by omega, h⟩⟩
      · exact Or.inr ⟨by omega, Or.inr ⟨by omega, by omega⟩⟩

/-- Between two floats next to each other the nearer one is the nearest of all. -/
theorem nearest_between {n den lo c : Nat} (hd : 0 < den) (h1 : den * units lo ≤ n) (h2 : n ≤ den * units (lo + 1))
    (hc : c = lo ∧ (n - den * units lo < den * units (lo + 1) - n ∨ n - den * units lo = den * units (lo + 1) - n ∧ lo % 2 = 0) ∨
      c = lo + 1 ∧ (den * units (lo + 1) - n < n - den * units lo ∨ n - den * units lo = den * units (lo + 1) - n ∧ (lo + 1) % 2 = 0))
    (c' : Nat) (hne : c' ≠ c) :
    apart n (den * units c) < apart n (den * units c') ∨ apart n (den * units c) = apart n (den * units c') ∧ c % 2 = 0 := by
  have hlt : den * units lo < den * units (lo + 1) := (Nat.mul_lt_mul_left hd).mpr (units_lt (by omega))
  unfold apart
  by_cases h : c' < lo
  · have : den * units c' < den * units lo := (Nat.mul_lt_mul_left hd).mpr (units_lt h)
    rcases hc with ⟨rfl, hc⟩ | ⟨rfl, hc⟩ <;> omega
  · by_cases h' : lo + 1 < c'
    · have : den * units (lo + 1) < den * units c' := (Nat.mul_lt_mul_left hd).mpr (units_lt h')
      rcases hc with ⟨rfl, hc⟩ | ⟨rfl, hc⟩ <;> omega
    · rcases hc with ⟨rfl, hc⟩ | ⟨rfl, hc⟩
      · have : c' = c + 1 := by omega
        subst this
        omega
      · have : c' = lo := by omega
        subst this
        omega

theorem nearest_min {num den c : Nat} (hd : 0 < den) {lo : Nat} (h1 : den * units lo ≤ num * 2 ^ 1074) (hc : c = lo ∨ c = lo + 1)
    (h : ∀ c', c' ≠ c → apart (num * 2 ^ 1074) (den * units c) < apart (num * 2 ^ 1074) (den * units c') ∨
      apart (num * 2 ^ 1074) (den * units c) = apart (num * 2 ^ 1074) (den * units c') ∧ c % 2 = 0) :
    Nearest num den (min infinity c) := by
  refine ⟨Nat.min_le_left _ _, fun c' hc' hne => ?_⟩
  by_cases hi : c ≤ infinity
  · rw [Nat.min_eq_right hi] at hne ⊢
    exact h c' hne
  · rw [Nat.min_eq_left (by omega)] at hne ⊢
    have h2 : den * units c' < den * units infinity := (Nat.mul_lt_mul_left hd).mpr (units_lt (by omega))
    have h3 : den * units infinity ≤ den * units lo := Nat.mul_le_mul_left _ (units_le (by omega))
    unfold apart
    omega

theorem round_range (n den : Nat) (hd : 0 < den) :
    n < 2 ^ 53 * (den * 2 ^ (Nat.log2 (n / den) - 52)) ∧
      (Nat.log2 (n / den) - 52 = 0 ∨ 2 ^ 52 * (den * 2 ^ (Nat.log2 (n / den) - 52)) ≤ n) := by
  have h1 := Nat.lt_log2_self (n := n / den)
  have h0 : n < den * (n / den + 1) := Nat.lt_mul_div_succ n hd
  constructor
  · have h2 : n / den + 1 ≤ 2 ^ (53 + (Nat.log2 (n / den) - 52)) :=
      Nat.le_trans (by omega) (Nat.pow_le_pow_right (by decide) (show Nat.log2 (n / den) + 1 ≤ _ by omega))
    have h3 := Nat.mul_le_mul_left den h2
    rw [Nat.pow_add, Nat.mul_left_comm] at h3
    omega
  · by_cases hk : Nat.log2 (n / den) - 52 = 0
    · exact Or.inl hk
    · right
      have hne : n / den ≠ 0 := by
        intro h
        rw [h] at hk
        exact hk (by decide)
      have h2 : 2 ^ (52 + (Nat.log2 (n / den) - 52)) ≤ n / den := by
        rw [show 52 + (Nat.log2 (n / den) - 52) = Nat.log2 (n / den) by omega]
        exact Nat.log2_self_le hne
      have h3 := Nat.mul_le_mul_left den h2
      have h4 := Nat.mul_div_le n den
      rw [Nat.pow_add, Nat.mul_left_comm] at h3
      omega

theorem round_nearest (num den : Nat) (hd : 0 < den) : Nearest num den (roundFloat num den) := by
  unfold roundFloat
  obtain ⟨hr1, hr2⟩ := round_range (num * 2 ^ 1074) den hd
  dsimp only
  generalize hk : Nat.log2 (num * 2 ^ 1074 / den) - 52 = k at *
  have hS : 0 < den * 2 ^ k := Nat.mul_pos hd (Nat.two_pow_pos k)
  obtain ⟨q, hq1, hq2, hq⟩ := halfEven_cases (num * 2 ^ 1074) (den * 2 ^ k) hS
  have hq53 : q + 1 ≤ 2 ^ 53 := by
    have : q * (den * 2 ^ k) < 2 ^ 53 * (den * 2 ^ k) := by omega
    exact Nat.lt_of_mul_lt_mul_right this
  have hq52 : k = 0 ∨ 2 ^ 52 ≤ q := by
    rcases hr2 with h | h
    · exact Or.inl h
    · right
      have : 2 ^ 52 * (den * 2 ^ k) < (q + 1) * (den * 2 ^ k) := by omega
      have := Nat.lt_of_mul_lt_mul_right this
      omega
  have hu1 : den * units (k * 2 ^ 52 + q) = q * (den * 2 ^ k) := by
    rw [units_code (by omega) hq52, Nat.mul_left_comm]
  have hu2 : den * units (k * 2 ^ 52 + q + 1) = (q + 1) * (den * 2 ^ k) := by
    rw [Nat.add_assoc, units_code hq53 (by omega), Nat.mul_left_comm]
  have hs : (q + 1) * (den * 2 ^ k) = q * (den * 2 ^ k) + den * 2 ^ k := by rw [Nat.add_mul, Nat.one_mul]
  have hev : ∀ m, (k * 2 ^ 52 + m) % 2 = m % 2 := fun m => by omega
  apply nearest_min hd (lo := k * 2 ^ 52 + q) (by rw [hu1]; exact hq1)
  · rcases hq with ⟨h, -⟩ | ⟨h, -⟩ <;> omega
  · intro c' hne
    refine nearest_between hd (lo := k * 2 ^ 52 + q) (by rw [hu1]; exact hq1) (by rw [hu2]; omega) ?_ c' hne
    rw [hu1, hu2, hev, Nat.add_assoc, hev, hs]
    rcases hq with ⟨h, hq⟩ | ⟨h, hq⟩
    · left; rw [h]; refine ⟨rfl, ?_⟩; omega
    · right; rw [h]; refine ⟨rfl, ?_⟩; omega

theorem nearest_one {num den c c' : Nat} (hd : 0 < den) (h : Nearest num den c) (h' : Nearest num den c') : c = c' := by
  have key : ∀ {c c' : Nat}, Nearest num den c → Nearest num den c' → ¬ c < c' := by
    intro c c' h h' hlt
    have h1 := h.2 c' h'.1 (by omega)
    have h2 := h'.2 c h.1 (by omega)
    have h3 := h.2 (c + 1) (by have := h'.1; omega) (by omega)
    have h4 : den * units c < den * units (c + 1) := (Nat.mul_lt_mul_left hd).mpr (units_lt (by omega))
    have h5 : c + 1 < c' := by omega
    have h6 : den * units (c + 1) < den * units c' := (Nat.mul_lt_mul_left hd).mpr (units_lt h5)
    unfold apart at *
    omega
  have h1 := key h h'
  have h2 := key h' h
  omega

theorem round_iff {num den : Nat} (hd : 0 < den) (c : Nat) : roundFloat num den = c ↔ Nearest num den c :=
  ⟨fun h => h ▸ round_nearest num den hd, fun h => nearest_one hd (round_nearest num den hd) h⟩

/-- Only the quotient counts. -/
theorem nearest_scale {num den c : Nat} (k : Nat) (hk : 0 < k) : Nearest (k * num) (k * den) c ↔ Nearest num den c := by
  unfold Nearest
  have h : ∀ c, apart (k * num * 2 ^ 1074) (k * den * units c) = k * apart (num * 2 ^ 1074) (den * units c) := by
    intro c
    unfold apart
    rw [Nat.mul_assoc, Nat.mul_assoc, ← Nat.mul_sub, ← Nat.mul_sub, ← Nat.mul_add]
  simp only [h, Nat.mul_lt_mul_left hk, Nat.mul_right_inj (Nat.pos_iff_ne_zero.mp hk)]

theorem nearest_eq {num den num' den' c : Nat} (hd : 0 < den) (hd' : 0 < den') (h : num * den' = num' * den) :
    Nearest num den c ↔ Nearest num' den' c := by
  rw [← nearest_scale den' hd', ← nearest_scale (num := num') den hd, Nat.mul_comm den' num, h, Nat.mul_comm den' den, Nat.mul_comm num']

/-- What lies between a number and the float to which it is rounded is rounded to it too. -/
theorem nearest_convex {num num' den c : Nat} (h : Nearest num den c)
    (hb : num * 2 ^ 1074 ≤ num' * 2 ^ 1074 ∧ num' * 2 ^ 1074 ≤ den * units c ∨
      den * units c ≤ num' * 2 ^ 1074 ∧ num' * 2 ^ 1074 ≤ num * 2 ^ 1074) : Nearest num' den c := by
  refine ⟨h.1, fun c' hc' hne => ?_⟩
  have := h.2 c' hc' hne
  generalize num * 2 ^ 1074 = a at *
  generalize num' * 2 ^ 1074 = b at *
  generalize den * units c = u at *
  generalize den * units c' = v at *
  unfold apart at *
  omega

/-! ## The digits -/

theorem power_spec {c : Nat} (h0 : 0 < c) (hi : c < infinity) :
    18 ≤ powerOf c ∧ 10 ^ 400 * units c < 2 ^ 1074 * 10 ^ powerOf c ∧ 2 ^ 1074 * 10 ^ (powerOf c - 1) ≤ 10 ^ 400 * units c := by
  have hu : 1 ≤ units c := units_lt h0
  have hu' : units c < 2 ^ 2098 := by
    have h : units infinity = 2 ^ 2098 := by decide +kernel
    rw [← h]
    exact units_lt hi
  unfold powerOf
  cases hf : (List.range 800).find? (fun j => decide (10 ^ 400 * units c < 2 ^ 1074 * 10 ^ j)) with
  | none =>
    have := List.find?_eq_none.mp hf 710 (by rw [List.mem_range]; decide)
    rw [decide_eq_true_eq, Nat.not_lt] at this
    have h2 : 10 ^ 400 * units c < 10 ^ 400 * 2 ^ 2098 := (Nat.mul_lt_mul_left (Nat.pow_pos (by decide))).mpr hu'
    have h3 : 10 ^ 400 * 2 ^ 2098 ≤ 2 ^ 1074 * 10 ^ 710 := by decide +kernel
    exact absurd (Nat.le_trans (Nat.le_of_lt h2) h3) (Nat.not_le.mpr (Nat.lt_of_lt_of_le h2 (Nat.le_trans h3 (Nat.le_refl _)) |> fun h => by
      exact absurd this (Nat.not_le.mpr h)))
  | some j =>
    obtain ⟨h1, -, h2⟩ := List.find?_range_eq_some.mp hf
    rw [decide_eq_true_eq] at h1
    rw [Option.getD_some]
    have hj : 18 ≤ j := by
      apply Nat.le_of_not_lt
      intro hj
      have h3 : 2 ^ 1074 * 10 ^ j ≤ 2 ^ 1074 * 10 ^ 17 := Nat.mul_le_mul_left _ (Nat.pow_le_pow_right (by decide) (by omega))
      have h4 : 2 ^ 1074 * 10 ^ 17 ≤ 10 ^ 400 * 1 := by decide +kernel
      have h5 : 10 ^ 400 * 1 ≤ 10 ^ 400 * units c := Nat.mul_le_mul_left _ hu
      exact Nat.lt_irrefl _ (Nat.lt_of_lt_of_le h1 (Nat.le_trans h3 (Nat.le_trans h4 h5)))
    refine ⟨hj, h1, ?_⟩
    have := h2 (j - 1) (by omega)
    simpa using this

/-- `num / 10 ^ 400` is rounded to the float. -/
def Rounds (c num : Nat) : Prop := Nearest num (10 ^ 400) c

/-- The distance to the float. -/
def gap (c num : Nat) : Nat := apart (num * 2 ^ 1074) (10 ^ 400 * units c)

theorem rounds_iff (c num : Nat) : roundFloat num (10 ^ 400) = c ↔ Rounds c num := round_iff (Nat.pow_pos (by decide)) c

/-- What `tryDigits` computes, without the large numbers. -/
theorem try_cases (c j k : Nat) :
    ∃ lo r, 10 ^ 400 * units c = lo * (2 ^ 1074 * 10 ^ (j - k)) + r ∧ r < 2 ^ 1074 * 10 ^ (j - k) ∧
      ((∃ d, tryDigits c j k = some (d, j - k) ∧ Rounds c (d * 10 ^ (j - k)) ∧
        (d = lo ∧ (¬ Rounds c ((lo + 1) * 10 ^ (j - k)) ∨ 2 * r < 2 ^ 1074 * 10 ^ (j - k) ∨ 2 * r = 2 ^ 1074 * 10 ^ (j - k) ∧ lo % 2 = 0) ∨
          d = lo + 1 ∧ (¬ Rounds c (lo * 10 ^ (j - k)) ∨ 2 ^ 1074 * 10 ^ (j - k) < 2 * r ∨
            2 * r = 2 ^ 1074 * 10 ^ (j - k) ∧ (lo + 1) % 2 = 0))) ∨
        tryDigits c j k = none ∧ ¬ Rounds c (lo * 10 ^ (j - k)) ∧ ¬ Rounds c ((lo + 1) * 10 ^ (j - k))) := by
  have hs : 0 < 2 ^ 1074 * 10 ^ (j - k) := Nat.mul_pos (Nat.two_pow_pos _) (Nat.pow_pos (by decide))
  refine ⟨10 ^ 400 * units c / (2 ^ 1074 * 10 ^ (j - k)), 10 ^ 400 * units c % (2 ^ 1074 * 10 ^ (j - k)), ?_, Nat.mod_lt _ hs, ?_⟩
  · rw [Nat.mul_comm (_ / _)]
    exact (Nat.div_add_mod _ _).symm
  · unfold tryDigits
    simp only [rounds_iff]
    generalize 10 ^ 400 * units c / (2 ^ 1074 * 10 ^ (j - k)) = lo
    generalize 10 ^ 400 * units c % (2 ^ 1074 * 10 ^ (j - k)) = r
    generalize 2 ^ 1074 * 10 ^ (j - k) = S
    split
    · rename_i h
      simp only [rounds_iff] at h
      exact Or.inl ⟨lo, rfl, h.1, Or.inl ⟨rfl, h.2⟩⟩
    · rename_i h
      simp only [rounds_iff] at h
      split
      · rename_i hb
        rw [rounds_iff] at hb
        refine Or.inl ⟨lo + 1, rfl, hb, Or.inr ⟨rfl, ?_⟩⟩
        by_cases ha : Rounds c (lo * 10 ^ (j - k))
        · have h1 : ¬ 2 * r < S := fun hl => h ⟨ha, Or.inr (Or.inl hl)⟩
          have h2 : ¬ (2 * r = S ∧ lo % 2 = 0) := fun hl => h ⟨ha, Or.inr (Or.inr hl)⟩
          exact Or.inr (by omega)
        · exact Or.inl ha
      · rename_i hb
        rw [rounds_iff] at hb
        refine Or.inr ⟨rfl, fun ha => h ⟨ha, Or.inl hb⟩, hb⟩

theorem grid {c p lo r : Nat} (h1 : 10 ^ 400 * units c = lo * (2 ^ 1074 * 10 ^ p) + r) (h2 : r < 2 ^ 1074 * 10 ^ p) (d : Nat)
    (h : Rounds c (d * 10 ^ p)) :
    (Rounds c (lo * 10 ^ p) ∧ (d = lo ∨ r < gap c (d * 10 ^ p))) ∨
      (Rounds c ((lo + 1) * 10 ^ p) ∧ (d = lo + 1 ∨ 2 ^ 1074 * 10 ^ p - r < gap c (d * 10 ^ p))) := by
  have e : ∀ d, d * 10 ^ p * 2 ^ 1074 = d * (2 ^ 1074 * 10 ^ p) := fun d => by rw [Nat.mul_assoc, Nat.mul_comm (10 ^ p)]
  by_cases hd : d ≤ lo
  · have h3 : d * (2 ^ 1074 * 10 ^ p) ≤ lo * (2 ^ 1074 * 10 ^ p) := Nat.mul_le_mul_right _ hd
    left
    refine ⟨nearest_convex h (Or.inl ?_), ?_⟩
    · rw [e, e, h1]; omega
    · rcases Nat.lt_or_eq_of_le hd with hd | hd
      · right
        have h5 : (d + 1) * (2 ^ 1074 * 10 ^ p) ≤ lo * (2 ^ 1074 * 10 ^ p) := Nat.mul_le_mul_right _ hd
        rw [Nat.add_mul, Nat.one_mul] at h5
        unfold gap apart; rw [e, h1]; omega
      · exact Or.inl hd
  · have h3 : (lo + 1) * (2 ^ 1074 * 10 ^ p) ≤ d * (2 ^ 1074 * 10 ^ p) := Nat.mul_le_mul_right _ (by omega)
    have h4 : (lo + 1) * (2 ^ 1074 * 10 ^ p) = lo * (2 ^ 1074 * 10 ^ p) + 2 ^ 1074 * 10 ^ p := by rw [Nat.add_mul, Nat.one_mul]
    right
    refine ⟨nearest_convex h (Or.inr ?_), ?_⟩
    · rw [e, e, h1]; omega
    · by_cases hd' : d = lo + 1
      · exact Or.inl hd'
      · right
        have h5 : (lo + 1 + 1) * (2 ^ 1074 * 10 ^ p) ≤ d * (2 ^ 1074 * 10 ^ p) := Nat.mul_le_mul_right _ (by omega)
        rw [Nat.add_mul (lo + 1), Nat.one_mul] at h5
        unfold gap apart; rw [e, h1]; omega

theorem gap_lo {c p lo r : Nat} (h1 : 10 ^ 400 * units c = lo * (2 ^ 1074 * 10 ^ p) + r) : gap c (lo * 10 ^ p) = r := by
  unfold gap apart
  rw [show lo * 10 ^ p * 2 ^ 1074 = lo * (2 ^ 1074 * 10 ^ p) by rw [Nat.mul_assoc, Nat.mul_comm (10 ^ p)], h1]
  omega

theorem gap_hi {c p lo r : Nat} (h1 : 10 ^ 400 * units c = lo * (2 ^ 1074 * 10 ^ p) + r) (h2 : r < 2 ^ 1074 * 10 ^ p) :
    gap c ((lo + 1) * 10 ^ p) = 2 ^ 1074 * 10 ^ p - r := by
  unfold gap apart
  rw [show (lo + 1) * 10 ^ p * 2 ^ 1074 = (lo + 1) * (2 ^ 1074 * 10 ^ p) by rw [Nat.mul_assoc, Nat.mul_comm (10 ^ p)], h1, Nat.add_mul,
    Nat.one_mul]
  omega

/-- The digits found are read as the float, and no others of this length are nearer. -/
theorem try_some {c j k : Nat} {d : Nat × Nat} (h : tryDigits c j k = some d) :
    d.2 = j - k ∧ Rounds c (d.1 * 10 ^ (j - k)) ∧
      (∀ d', Rounds c (d' * 10 ^ (j - k)) → gap c (d.1 * 10 ^ (j - k)) < gap c (d' * 10 ^ (j - k)) ∨
        gap c (d.1 * 10 ^ (j - k)) = gap c (d' * 10 ^ (j - k)) ∧ (d' = d.1 ∨ d.1 % 2 = 0 ∧ (d.1 = d' + 1 ∨ d' = d.1 + 1))) ∧
      d.1 * (2 ^ 1074 * 10 ^ (j - k)) ≤ 10 ^ 400 * units c + 2 ^ 1074 * 10 ^ (j - k) ∧
      10 ^ 400 * units c < (d.1 + 1) * (2 ^ 1074 * 10 ^ (j - k)) := by
  obtain ⟨lo, r, h1, h2, ⟨d0, hd0, hr, hc⟩ | ⟨hn, -⟩⟩ := try_cases c j k
  · rw [hd0] at h
    cases h
    refine ⟨rfl, hr, fun d' h' => ?_, ?_, ?_⟩
    · have g1 := gap_lo h1
      have g2 := gap_hi h1 h2
      have g3 := grid h1 h2 d' h'
      rcases hc with ⟨rfl, hc⟩ | ⟨rfl, hc⟩
      · dsimp only; rw [g1]
        rcases g3 with ⟨-, rfl | g3⟩ | ⟨g3, rfl | g4⟩
        · exact Or.inr ⟨g1.symm, Or.inl rfl⟩
        · exact Or.inl g3
        · rw [g2]
          rcases hc with hc | hc | hc
          · exact absurd g3 hc
          · exact Or.inl (by omega)
          · exact Or.inr ⟨by omega, Or.inr ⟨hc.2, Or.inr rfl⟩⟩
        · rcases hc with hc | hc | hc
          · exact absurd g3 hc
          · exact Or.inl (by omega)
          · exact Or.inl (by omega)
      · dsimp only; rw [g2]
        rcases g3 with ⟨g3, rfl | g4⟩ | ⟨-, rfl | g3⟩
        · rw [g1]
          rcases hc with hc | hc | hc
          · exact absurd g3 hc
          · exact Or.inl (by omega)
          · exact Or.inr ⟨by omega, Or.inr ⟨hc.2, Or.inl rfl⟩⟩
        · rcases hc with hc | hc | hc
          · exact absurd g3 hc
          · exact Or.inl (by omega)
          · exact Or.inl (by omega)
        · exact Or.inr ⟨g2.symm, Or.inl rfl⟩
        · exact Or.inl g3
    · rcases hc with ⟨rfl, -⟩ | ⟨rfl, -⟩
      · dsimp only; omega
      · dsimp only; rw [Nat.add_mul, Nat.one_mul]; omega
    · rcases hc with ⟨rfl, -⟩ | ⟨rfl, -⟩
      · dsimp only; rw [Nat.add_mul, Nat.one_mul]; omega
      · dsimp only; rw [Nat.add_mul, Nat.add_mul, Nat.one_mul]; omega
  · rw [hn] at h
    cases h

theorem tie_arith {D S n : Nat} (hD : 0 < D) (hS : 0 < S) (h : apart (10 * S) (D * units (n + 1)) = apart (9 * S) (D * units (n + 1)))
    (h1 : apart (9 * S) (D * units (n + 1)) ≤ apart (9 * S) (D * units n)) (key : ∀ m < 9, 2 * (D * (m + 1)) % 19 ≠ 0) : False := by
  have hlt := Nat.mul_lt_mul_of_pos_left (units_lt (Nat.lt_succ_self n)) hD
  have h2 : 2 * (D * units (n + 1)) = 19 * S := by
    generalize D * units (n + 1) = u at *
    generalize D * units n = v at *
    unfold apart at h h1
    omega
  have h4 : 19 * (D * units n) ≤ 17 * (D * units (n + 1)) := by
    generalize D * units (n + 1) = u at *
    generalize D * units n = v at *
    unfold apart at h h1
    omega
  have h5 : 19 * units n ≤ 17 * units (n + 1) := by
    apply Nat.le_of_mul_le_mul_left _ hD
    rw [Nat.mul_left_comm, Nat.mul_left_comm D 17]
    exact h4
  rw [units_succ n] at h5
  have h6 : n < 9 := by
    clear h2 h4 h h1 key hlt
    apply Nat.lt_of_not_le
    intro h9
    unfold units at h5
    by_cases hz : n / 2 ^ 52 = 0
    · rw [if_pos hz, hz, show n % 2 ^ 52 = n by omega, show 0 - 1 = 0 from rfl, Nat.pow_zero, Nat.mul_one] at h5
      omega
    · rw [if_neg hz] at h5
      have h7 : 2 ^ 52 * 2 ^ (n / 2 ^ 52 - 1) ≤ (2 ^ 52 + n % 2 ^ 52) * 2 ^ (n / 2 ^ 52 - 1) := Nat.mul_le_mul_right _ (Nat.le_add_right _ _)
      have h8 := Nat.two_pow_pos (n / 2 ^ 52 - 1)
      generalize 2 ^ (n / 2 ^ 52 - 1) = z at *
      generalize (2 ^ 52 + n % 2 ^ 52) * z = w at *
      omega
  have h7 : units (n + 1) = n + 1 := by
    unfold units
    rw [show (n + 1) / 2 ^ 52 = 0 by omega, if_pos rfl, show (n + 1) % 2 ^ 52 = n + 1 by omega]
    exact Nat.mul_one _
  rw [h7] at h2
  apply key n h6
  rw [h2, Nat.mul_mod_right]

/-- No float lies in the middle between `9` and `10` times a power of ten that are both rounded to it. -/
theorem no_tie_ten {c p : Nat} (h0 : 0 < c) (hr : Rounds c (9 * 10 ^ p)) : gap c (10 * 10 ^ p) ≠ gap c (9 * 10 ^ p) := by
  intro h
  have e : ∀ d, d * 10 ^ p * 2 ^ 1074 = d * (2 ^ 1074 * 10 ^ p) := fun d => by rw [Nat.mul_assoc, Nat.mul_comm (10 ^ p)]
  have hS : 0 < 2 ^ 1074 * 10 ^ p := Nat.mul_pos (Nat.two_pow_pos _) (Nat.pow_pos (by decide))
  cases c with
  | zero => exact absurd h0 (Nat.lt_irrefl _)
  | succ n =>
    have h1 := hr.2 n (Nat.le_of_succ_le hr.1) (Nat.ne_of_lt (Nat.lt_succ_self n))
    have h2 : apart (9 * 10 ^ p * 2 ^ 1074) (10 ^ 400 * units (n + 1)) ≤ apart (9 * 10 ^ p * 2 ^ 1074) (10 ^ 400 * units n) := by
      rcases h1 with h1 | h1
      · exact Nat.le_of_lt h1
      · exact Nat.le_of_eq h1.1
    unfold gap at h
    rw [e, e] at h
    rw [e] at h2
    exact tie_arith (Nat.pow_pos (by decide)) hS h h2 (by decide +kernel)

theorem no_eleven {c p : Nat} (hj : 10 ^ 400 * units c < 10 ^ 1 * (2 ^ 1074 * 10 ^ p)) : gap c (10 * 10 ^ p) ≠ gap c ((10 + 1) * 10 ^ p) := by
  intro h
  have e : ∀ d, d * 10 ^ p * 2 ^ 1074 = d * (2 ^ 1074 * 10 ^ p) := fun d => by rw [Nat.mul_assoc, Nat.mul_comm (10 ^ p)]
  unfold gap at h
  rw [e, e] at h
  generalize 2 ^ 1074 * 10 ^ p = S at *
  generalize 10 ^ 400 * units c = u at *
  unfold apart at h
  omega

theorem try_none {c j k : Nat} (h : tryDigits c j k = none) (d : Nat) : ¬ Rounds c (d * 10 ^ (j - k)) := by
  obtain ⟨lo, r, h1, h2, ⟨d0, hd0, -, -⟩ | ⟨-, ha, hb⟩⟩ := try_cases c j k
  · rw [hd0] at h
    cases h
  · intro hd
    rcases grid h1 h2 d hd with ⟨g, -⟩ | ⟨g, -⟩
    · exact ha g
    · exact hb g

/-- What is near enough is rounded to the float. -/
theorem rounds_near {c num : Nat} (hc : c ≤ infinity) (h : 2 ^ 54 * gap c num < 10 ^ 400 * units c) : Rounds c num := by
  refine ⟨hc, fun c' _ hne => Or.inl ?_⟩
  have h1 := Nat.mul_le_mul_left (10 ^ 400) (units_gap hne)
  have h2 : 10 ^ 400 * (2 ^ 53 * apart (units c') (units c)) = 2 ^ 53 * apart (10 ^ 400 * units c') (10 ^ 400 * units c) := by
    unfold apart
    rw [Nat.mul_left_comm, Nat.mul_add, Nat.mul_sub, Nat.mul_sub]
  rw [h2] at h1
  unfold gap at h
  generalize 10 ^ 400 * units c = u at *
  generalize 10 ^ 400 * units c' = v at *
  generalize num * 2 ^ 1074 = n at *
  unfold apart at *
  omega

/-- Seventeen digits are always enough. -/
theorem try_seventeen {c : Nat} (h0 : 0 < c) (hi : c < infinity) : tryDigits c (powerOf c) 17 ≠ none := by
  obtain ⟨hj, -, h3⟩ := power_spec h0 hi
  intro h
  obtain ⟨lo, r, h1, h2, ⟨d0, hd0, -, -⟩ | ⟨-, ha, hb⟩⟩ := try_cases c (powerOf c) 17
  · rw [hd0] at h
    cases h
  · have hp : 10 ^ (powerOf c - 1) = 10 ^ 16 * 10 ^ (powerOf c - 17) := by
      rw [← Nat.pow_add, show 16 + (powerOf c - 17) = powerOf c - 1 by omega]
    rw [hp, Nat.mul_left_comm] at h3
    have g1 := gap_lo h1
    have g2 := gap_hi h1 h2
    have ha' : ¬ 2 ^ 54 * r < 10 ^ 400 * units c := fun hh => ha (rounds_near (Nat.le_of_lt hi) (by rw [g1]; exact hh))
    have hb' : ¬ 2 ^ 54 * (2 ^ 1074 * 10 ^ (powerOf c - 17) - r) < 10 ^ 400 * units c :=
      fun hh => hb (rounds_near (Nat.le_of_lt hi) (by rw [g2]; exact hh))
    generalize 2 ^ 1074 * 10 ^ (powerOf c - 17) = S at *
    generalize 10 ^ 400 * units c = u at *
    omega

theorem first_spec (g : Nat → Option (Nat × Nat)) (n : Nat) : ∀ k, (∃ k', k ≤ k' ∧ k' < k + n ∧ g k' ≠ none) →
    ∃ k', k ≤ k' ∧ k' < k + n ∧ g k' = some (firstSome g n k) ∧ ∀ i, k ≤ i → i < k' → g i = none := by
  induction n with
  | zero =>
    rintro k ⟨k', h1, h2, -⟩
    omega
  | succ n ih =>
    rintro k ⟨k', h1, h2, h3⟩
    unfold firstSome
    cases ht : g k with
    | some d => exact ⟨k, Nat.le_refl _, by omega, ht, fun i hi hi' => by omega⟩
    | none =>
      have hne : k ≠ k' := fun h => h3 (h ▸ ht)
      obtain ⟨k'', g1, g2, g3, g4⟩ := ih (k + 1) ⟨k', by omega, by omega, h3⟩
      refine ⟨k'', by omega, by omega, g3, fun i hi hi' => ?_⟩
      by_cases he : i = k
      · rw [he]; exact ht
      · exact g4 i (by omega) hi'

theorem strip_spec : ∀ n d p, 0 < d → d ≤ 10 ^ n → ∃ t, d = (stripZeros n (d, p)).1 * 10 ^ t ∧ (stripZeros n (d, p)).2 = p + t ∧
    (stripZeros n (d, p)).1 % 10 ≠ 0
  | 0, d, p, h0, h1 => by
    rw [Nat.pow_zero] at h1
    refine ⟨0, by simp [stripZeros], rfl, ?_⟩
    simp only [stripZeros]
    omega
  | n + 1, d, p, h0, h1 => by
    unfold stripZeros
    split
    · rename_i h
      rw [Nat.pow_succ] at h1
      obtain ⟨t, g1, g2, g3⟩ := strip_spec n (d / 10) (p + 1) (by omega) (by omega)
      refine ⟨t + 1, ?_, by omega, g3⟩
      rw [Nat.pow_succ, ← Nat.mul_assoc, ← g1]
      omega
    · rename_i h
      exact ⟨0, by simp, rfl, h⟩

/-- Decimal numbers with at most `k` digits that are rounded to the float: there are such multiples of the `k`th power below, and they are
not farther. -/
theorem on_grid {c : Nat} (h0 : 0 < c) (hi : c < infinity) {k d num den : Nat} {x : Int} (hk : 0 < k) (hk' : k < 18) (hd : d < 10 ^ k)
    (hx : Decimal d x num den) (hn : Nearest num den c) :
    ∃ d', Rounds c (d' * 10 ^ (powerOf c - k)) ∧
      den * gap c (d' * 10 ^ (powerOf c - k)) ≤ 10 ^ 400 * apart (num * 2 ^ 1074) (den * units c) ∧
      (den * gap c (d' * 10 ^ (powerOf c - k)) = 10 ^ 400 * apart (num * 2 ^ 1074) (den * units c) →
        num * 10 ^ 400 = d' * 10 ^ (powerOf c - k) * den) := by
  obtain ⟨hj, -, h3⟩ := power_spec h0 hi
  generalize hjj : powerOf c = j at *
  obtain ⟨rfl, rfl⟩ := hx
  have hden : 0 < 10 ^ (-x).toNat := Nat.pow_pos (by decide)
  have hbig : 0 < 10 ^ 400 := Nat.pow_pos (by decide)
  by_cases hlt : ((j - k : Nat) : Int) ≤ x + 400
  · obtain ⟨t, ht⟩ : ∃ t : Nat, x + 400 = ((j - k : Nat) : Int) + t := ⟨(x + 400 - ((j - k : Nat) : Int)).toNat, by omega⟩
    have he : d * 10 ^ x.toNat * 10 ^ 400 = d * 10 ^ t * 10 ^ (j - k) * 10 ^ (-x).toNat := by
      rw [Nat.mul_assoc, Nat.mul_assoc, Nat.mul_assoc, ← Nat.pow_add, ← Nat.pow_add, ← Nat.pow_add]
      have : x.toNat + 400 = t + (j - k + (-x).toNat) := by omega
      rw [this]
    refine ⟨d * 10 ^ t, (nearest_eq hden hbig he).mp hn, ?_, fun _ => he⟩
    unfold gap apart
    rw [Nat.mul_add, Nat.mul_sub, Nat.mul_sub, Nat.mul_add, Nat.mul_sub, Nat.mul_sub]
    have e1 : 10 ^ (-x).toNat * (d * 10 ^ t * 10 ^ (j - k) * 2 ^ 1074) = 10 ^ 400 * (d * 10 ^ x.toNat * 2 ^ 1074) := by
      rw [← Nat.mul_assoc, Nat.mul_comm (10 ^ (-x).toNat), ← he, ← Nat.mul_assoc (10 ^ 400), Nat.mul_comm (10 ^ 400)]
    have e2 : 10 ^ (-x).toNat * (10 ^ 400 * units c) = 10 ^ 400 * (10 ^ (-x).toNat * units c) := Nat.mul_left_comm _ _ _
    rw [e1, e2]
    exact Nat.le_refl _
  · have hpow : 10 ^ (k - 1) * 10 ^ (j - k) = 10 ^ (j - 1) := by
      rw [← Nat.pow_add, show k - 1 + (j - k) = j - 1 by omega]
    have hle : 10 ^ 400 * (d * 10 ^ x.toNat) ≤ 10 ^ (-x).toNat * 10 ^ (j - 1) := by
      have h4 : d * 10 ^ x.toNat * 10 ^ 400 ≤ 10 ^ k * 10 ^ x.toNat * 10 ^ 400 :=
        Nat.mul_le_mul_right _ (Nat.mul_le_mul_right _ (Nat.le_of_lt hd))
      rw [Nat.mul_comm (10 ^ 400)]
      refine Nat.le_trans h4 ?_
      rw [← Nat.pow_add, ← Nat.pow_add, ← Nat.pow_add]
      exact Nat.pow_le_pow_right (by decide) (by omega)
    have a1 : 10 ^ 400 * (d * 10 ^ x.toNat) * 2 ^ 1074 ≤ 10 ^ (-x).toNat * 10 ^ (j - 1) * 2 ^ 1074 := Nat.mul_le_mul_right _ hle
    have a2 : 10 ^ (-x).toNat * 10 ^ (j - 1) * 2 ^ 1074 ≤ 10 ^ (-x).toNat * 10 ^ 400 * units c := by
      rw [Nat.mul_assoc, Nat.mul_assoc, Nat.mul_comm (10 ^ (j - 1))]
      exact Nat.mul_le_mul_left _ h3
    refine ⟨10 ^ (k - 1), ?_, ?_⟩
    · rw [hpow]
      have h5 := (nearest_scale (10 ^ 400) hbig).mpr hn
      have h6 : Nearest (10 ^ (-x).toNat * 10 ^ (j - 1)) (10 ^ 400 * 10 ^ (-x).toNat) c := by
        refine nearest_convex h5 (Or.inl ⟨a1, ?_⟩)
        rw [Nat.mul_comm (10 ^ 400)]
        exact a2
      rw [Nat.mul_comm (10 ^ 400)] at h6
      exact (nearest_scale _ hden).mp h6
    · rw [hpow]
      unfold gap apart
      have e1 : 10 ^ 400 * (d * 10 ^ x.toNat * 2 ^ 1074) = 10 ^ 400 * (d * 10 ^ x.toNat) * 2 ^ 1074 := (Nat.mul_assoc _ _ _).symm
      have e2 : 10 ^ 400 * (10 ^ (-x).toNat * units c) = 10 ^ (-x).toNat * 10 ^ 400 * units c := by
        rw [Nat.mul_left_comm, Nat.mul_assoc]
      rw [Nat.mul_add, Nat.mul_sub, Nat.mul_sub, Nat.mul_add, Nat.mul_sub, Nat.mul_sub, e1, e2, ← Nat.mul_assoc, ← Nat.mul_assoc]
      have e4 : 10 ^ 400 * (d * 10 ^ x.toNat) * 2 ^ 1074 = 10 ^ (-x).toNat * 10 ^ (j - 1) * 2 ^ 1074 →
          d * 10 ^ x.toNat * 10 ^ 400 = 10 ^ (j - 1) * 10 ^ (-x).toNat := by
        intro h
        have := Nat.eq_of_mul_eq_mul_right (Nat.two_pow_pos _) h
        rw [Nat.mul_comm, this, Nat.mul_comm]
      generalize 10 ^ 400 * (d * 10 ^ x.toNat) * 2 ^ 1074 = n1 at *
      generalize 10 ^ (-x).toNat * 10 ^ (j - 1) * 2 ^ 1074 = n2 at *
      generalize 10 ^ (-x).toNat * 10 ^ 400 * units c = n3 at *
      exact ⟨by omega, fun h => e4 (by omega)⟩

theorem not_nearest_zero {c den : Nat} (hd : 0 < den) (h0 : 0 < c) : ¬ Nearest 0 den c := by
  intro h
  have h1 := h.2 0 (Nat.zero_le _) (by omega)
  have h2 : 0 < den * units c := Nat.mul_pos hd (units_lt h0)
  have h3 : den * units 0 = 0 := by rw [show units 0 = 0 by decide, Nat.mul_zero]
  rw [h3] at h1
  generalize den * units c = u at *
  unfold apart at h1
  omega

/-- The digits of `shortest`: how many of them there are, which number they stand for, and that there are no better ones. -/
theorem shortest_spec {c : Nat} (h0 : 0 < c) (hi : c < infinity) :
    ∃ k, 0 < k ∧ k < 18 ∧ (∀ i, 0 < i → i < k → ∀ d, ¬ Rounds c (d * 10 ^ (powerOf c - i))) ∧ 0 < (shortest c).1 ∧
      (shortest c).1 < 10 ^ k ∧ Rounds c ((shortest c).1 * 10 ^ (shortest c).2) ∧
      ∀ d, Rounds c (d * 10 ^ (powerOf c - k)) → gap c ((shortest c).1 * 10 ^ (shortest c).2) < gap c (d * 10 ^ (powerOf c - k)) ∨
        gap c ((shortest c).1 * 10 ^ (shortest c).2) = gap c (d * 10 ^ (powerOf c - k)) ∧
          (d * 10 ^ (powerOf c - k) = (shortest c).1 * 10 ^ (shortest c).2 ∨ (shortest c).1 % 2 = 0) := by
  obtain ⟨hj, hj1, hj2⟩ := power_spec h0 hi
  obtain ⟨k, k1, k2, k3, k4⟩ := first_spec (tryDigits c (powerOf c)) 17 1 ⟨17, by decide, by decide, try_seventeen h0 hi⟩
  unfold shortest
  generalize hd : firstSome (tryDigits c (powerOf c)) 17 1 = d at *
  obtain ⟨d, p⟩ := d
  obtain ⟨hp, hr, hbest, hub, hlb⟩ := try_some k3
  dsimp only at hp hr hbest hub hlb
  subst hp
  have hstep : 0 < 2 ^ 1074 * 10 ^ (powerOf c - k) := Nat.mul_pos (Nat.two_pow_pos _) (Nat.pow_pos (by decide))
  have e1 : 2 ^ 1074 * 10 ^ (powerOf c - 1) = 10 ^ (k - 1) * (2 ^ 1074 * 10 ^ (powerOf c - k)) := by
    rw [Nat.mul_left_comm, ← Nat.pow_add, show k - 1 + (powerOf c - k) = powerOf c - 1 by omega]
  have e2 : 2 ^ 1074 * 10 ^ powerOf c = 10 ^ k * (2 ^ 1074 * 10 ^ (powerOf c - k)) := by
    rw [Nat.mul_left_comm, ← Nat.pow_add, show k + (powerOf c - k) = powerOf c by omega]
  rw [e1] at hj2
  rw [e2] at hj1
  have hd0 : 0 < d := by
    have h1 : 10 ^ (k - 1) < d + 1 := Nat.lt_of_mul_lt_mul_right (Nat.lt_of_le_of_lt hj2 hlb)
    have h2 : 0 < 10 ^ (k - 1) := Nat.pow_pos (by decide)
    omega
  have hd1 : d ≤ 10 ^ k := by
    have h1 : d * (2 ^ 1074 * 10 ^ (powerOf c - k)) < (10 ^ k + 1) * (2 ^ 1074 * 10 ^ (powerOf c - k)) := by
      rw [Nat.add_mul, Nat.one_mul]
      generalize 2 ^ 1074 * 10 ^ (powerOf c - k) = S at *
      generalize 10 ^ 400 * units c = u at *
      generalize 10 ^ k * S = y at *
      omega
    have := Nat.lt_of_mul_lt_mul_right h1
    omega
  obtain ⟨t, t1, t2, t3⟩ := strip_spec 17 d (powerOf c - k) hd0 (Nat.le_trans hd1 (Nat.pow_le_pow_right (by decide) (by omega)))
  generalize stripZeros 17 (d, powerOf c - k) = s at *
  have e3 : s.1 * 10 ^ s.2 = d * 10 ^ (powerOf c - k) := by
    rw [t1, t2, Nat.mul_assoc, ← Nat.pow_add, Nat.add_comm (powerOf c - k)]
  refine ⟨k, by omega, by omega, fun i i1 i2 d' => try_none (k4 i (by omega) i2) d', ?_, ?_, by rw [e3]; exact hr, ?_⟩
  · apply Nat.pos_of_ne_zero
    intro h
    rw [h] at t3
    exact t3 rfl
  · cases t with
    | zero =>
      rw [Nat.pow_zero, Nat.mul_one] at t1
      rcases Nat.lt_or_eq_of_le hd1 with h | h
      · omega
      · exfalso
        apply t3
        rw [← t1, h]
        obtain ⟨n, rfl⟩ : ∃ n, k = n + 1 := ⟨k - 1, by omega⟩
        rw [Nat.pow_succ, Nat.mul_mod_left]
    | succ t =>
      have h1 : s.1 * 10 ≤ d := by
        rw [t1, Nat.pow_succ, Nat.mul_comm (10 ^ t), ← Nat.mul_assoc]
        exact Nat.le_mul_of_pos_right _ (Nat.pow_pos (by decide))
      have : 0 < s.1 := by
        apply Nat.pos_of_ne_zero
        intro h
        rw [h] at t3
        exact t3 rfl
      omega
  · intro d' hd'
    rw [e3]
    rcases hbest d' hd' with h | ⟨h, rfl | ⟨h', hn⟩⟩
    · exact Or.inl h
    · exact Or.inr ⟨h, Or.inl rfl⟩
    · refine Or.inr ⟨h, Or.inr ?_⟩
      cases t with
      | zero =>
        rw [Nat.pow_zero, Nat.mul_one] at t1
        omega
      | succ t =>
        exfalso
        have h10 : d = s.1 * 10 ^ t * 10 := by rw [t1, Nat.pow_succ, Nat.mul_assoc]
        have hk1 : k = 1 := by
          apply Nat.le_antisymm _ k1
          apply Nat.le_of_not_lt
          intro hl
          apply try_none (k4 (k - 1) (by omega) (by omega)) (s.1 * 10 ^ t)
          rw [show powerOf c - (k - 1) = powerOf c - k + 1 by omega, Nat.pow_succ, Nat.mul_comm (10 ^ (powerOf c - k)), ← Nat.mul_assoc, ← h10]
          exact hr
        subst hk1
        have hd10 : d = 10 := by
          generalize s.1 * 10 ^ t = w at *
          omega
        subst hd10
        rcases hn with hn | rfl
        · have : d' = 9 := by omega
          subst this
          exact no_tie_ten h0 hd' h
        · exact no_eleven hj1 h

theorem shortest_shortest {c : Nat} (h0 : 0 < c) (hi : c < infinity) : Shortest c (shortest c).1 ((shortest c).2 - 400 : Int) := by
  obtain ⟨k, k1, k2, hnone, hpos, hlt, hr, hbest⟩ := shortest_spec h0 hi
  generalize hs : shortest c = s at *
  obtain ⟨d, p⟩ := s
  dsimp only at *
  have hbig : 0 < 10 ^ 400 := Nat.pow_pos (by decide)
  have hden : 0 < 10 ^ (-((p : Int) - 400)).toNat := Nat.pow_pos (by decide)
  have he : d * 10 ^ ((p : Int) - 400).toNat * 10 ^ 400 = d * 10 ^ p * 10 ^ (-((p : Int) - 400)).toNat := by
    rw [Nat.mul_assoc, Nat.mul_assoc, ← Nat.pow_add, ← Nat.pow_add,
      show ((p : Int) - 400).toNat + 400 = p + (-((p : Int) - 400)).toNat by omega]
  have hg : 10 ^ 400 * apart (d * 10 ^ ((p : Int) - 400).toNat * 2 ^ 1074) (10 ^ (-((p : Int) - 400)).toNat * units c) =
      10 ^ (-((p : Int) - 400)).toNat * gap c (d * 10 ^ p) := by
    unfold gap apart
    rw [Nat.mul_add, Nat.mul_sub, Nat.mul_sub, Nat.mul_add, Nat.mul_sub, Nat.mul_sub]
    have e1 : 10 ^ 400 * (d * 10 ^ ((p : Int) - 400).toNat * 2 ^ 1074) = 10 ^ (-((p : Int) - 400)).toNat * (d * 10 ^ p * 2 ^ 1074) := by
      rw [← Nat.mul_assoc, Nat.mul_comm (10 ^ 400), he, ← Nat.mul_assoc, Nat.mul_comm (d * 10 ^ p)]
    rw [e1, Nat.mul_left_comm (10 ^ 400)]
  refine ⟨_, _, ⟨rfl, rfl⟩, (nearest_eq hden hbig he).mpr hr, fun d' x' num' den' hx hn k' hk' => ?_⟩
  have hd'pos : 0 < den' := by rw [hx.2]; exact Nat.pow_pos (by decide)
  have hk0 : 0 < k' := by
    apply Nat.pos_of_ne_zero
    rintro rfl
    have : d' = 0 := by rw [Nat.pow_zero] at hk'; omega
    subst this
    rw [hx.1, Nat.zero_mul] at hn
    exact not_nearest_zero hd'pos h0 hn
  have hkk : k ≤ k' := by
    apply Nat.le_of_not_lt
    intro hl
    obtain ⟨e, h1, -⟩ := on_grid h0 hi hk0 (by omega) hk' hx hn
    exact hnone k' hk0 hl e h1
  refine ⟨Nat.lt_of_lt_of_le hlt (Nat.pow_le_pow_right (by decide) hkk), fun hten => ?_⟩
  have : k' = k := by
    apply Nat.le_antisymm _ hkk
    apply Nat.le_of_not_lt
    intro hl
    have h1 : 10 ^ (k + 1) ≤ 10 ^ k' := Nat.pow_le_pow_right (by decide) hl
    rw [Nat.pow_succ] at h1
    omega
  subst this
  obtain ⟨e, h1, h2⟩ := on_grid h0 hi k1 k2 hk' hx hn
  have h3 := hbest e h1
  have e1 : 10 ^ 400 * (den' * apart (d * 10 ^ ((p : Int) - 400).toNat * 2 ^ 1074) (10 ^ (-((p : Int) - 400)).toNat * units c)) =
      10 ^ (-((p : Int) - 400)).toNat * (den' * gap c (d * 10 ^ p)) := by
    rw [Nat.mul_left_comm, hg, Nat.mul_left_comm]
  have e2 : 10 ^ 400 * (10 ^ (-((p : Int) - 400)).toNat * apart (num' * 2 ^ 1074) (den' * units c)) =
      10 ^ (-((p : Int) - 400)).toNat * (10 ^ 400 * apart (num' * 2 ^ 1074) (den' * units c)) := Nat.mul_left_comm _ _ _
  have e3 : num' * 10 ^ 400 = d * 10 ^ p * den' → num' * 10 ^ (-((p : Int) - 400)).toNat = d * 10 ^ ((p : Int) - 400).toNat * den' := by
    intro h
    apply Nat.eq_of_mul_eq_mul_right hbig
    rw [Nat.mul_right_comm, h, Nat.mul_right_comm, ← he, Nat.mul_right_comm]
  generalize d * 10 ^ ((p : Int) - 400).toNat = num at *
  generalize 10 ^ (-((p : Int) - 400)).toNat = den at *
  generalize hA : den' * apart (num * 2 ^ 1074) (den * units c) = A at *
  generalize hB : den * apart (num' * 2 ^ 1074) (den' * units c) = B at *
  generalize 10 ^ 400 * apart (num' * 2 ^ 1074) (den' * units c) = C at *
  have hAB : (den' * gap c (d * 10 ^ p) < C → A < B) ∧ (den' * gap c (d * 10 ^ p) = C → A = B) := by
    refine ⟨fun h => ?_, fun h => ?_⟩
    · apply Nat.lt_of_mul_lt_mul_left (a := 10 ^ 400)
      rw [e1, e2]
      exact Nat.mul_lt_mul_of_pos_left h hden
    · apply Nat.eq_of_mul_eq_mul_left hbig
      rw [e1, e2, h]
  rcases h3 with h3 | ⟨h3, h4⟩
  · exact Or.inl (hAB.1 (Nat.lt_of_lt_of_le (Nat.mul_lt_mul_of_pos_left h3 hd'pos) h2.1))
  · rw [h3] at hAB
    rcases Nat.lt_or_eq_of_le h2.1 with h5 | h5
    · exact Or.inl (hAB.1 h5)
    · refine Or.inr ⟨hAB.2 h5, ?_⟩
      rcases h4 with h4 | h4
      · left
        apply e3
        rw [h2.2 h5, h4]
      · exact Or.inr h4

/-! ## Reading -/

theorem decimal_append (a b : PyStr) : decimal (a ++ b) = decimal a * 10 ^ b.length + decimal b := by
  induction a with
  | nil => simp [decimal]
  | cons d a ih =>
    rw [List.cons_append, decimal, decimal, ih, List.length_append, Nat.pow_add, Nat.add_mul, Nat.mul_assoc, Nat.add_assoc]

theorem decimal_zeros (n : Nat) : decimal (List.replicate n 48) = 0 := by
  induction n with
  | zero => rfl
  | succ n ih => rw [List.replicate_succ, decimal, ih]; simp

theorem span_digits {ds rest : PyStr} (h : ∀ d ∈ ds, 48 ≤ d ∧ d ≤ 57) (hr : ∀ c, rest.head? = some c → isDigit c = false) :
    (ds ++ rest).takeWhile isDigit = ds ∧ (ds ++ rest).dropWhile isDigit = rest :=
  takeWhile_digits (fun d hd => isDigit_iff.mpr (h d hd)) hr

theorem readExp {ep : PyStr} {x : Int} (h : Exponent ep x) : readExponent ep = x := by
  rcases h with ⟨rfl, rfl⟩ | ⟨e, sign, ds, he, hds, rfl, ⟨rfl | rfl, rfl⟩ | ⟨rfl, rfl⟩⟩
  · rfl
  · obtain ⟨d, t, rfl⟩ := List.exists_cons_of_ne_nil hds.1
    have hd := hds.2 d List.mem_cons_self
    rw [List.nil_append, ← natOfDigits_eq]
    have h1 : d ≠ 43 := by omega
    have h2 : d ≠ 45 := by omega
    unfold readExponent
    split
    · rename_i heq
      simp only [List.cons.injEq] at heq
      exact absurd heq.2.1 h1
    · rename_i heq
      simp only [List.cons.injEq] at heq
      exact absurd heq.2.1 h2
    · rename_i heq
      simp only [List.cons.injEq] at heq
      rw [heq.2]
    · rename_i heq
      cases heq
  · show ((natOfDigits ds : Nat) : Int) = _
    rw [natOfDigits_eq]
  · show -((natOfDigits ds : Nat) : Int) = _
    rw [natOfDigits_eq]

theorem exp_head {ep : PyStr} {x : Int} (h : Exponent ep x) : ∀ c, ep.head? = some c → c = 101 ∨ c = 69 := by
  rcases h with ⟨rfl, -⟩ | ⟨e, sign, ds, he, -, rfl, -⟩
  · intro c hc; cases hc
  · intro c hc
    cases hc
    exact he

theorem readDecimal_spec {ip fp ep ds : PyStr} {x : Int} (hip : Digits ip) (hf : Fraction fp ds) (he : Exponent ep x) :
    readDecimal (ip ++ fp ++ ep) = (decimal (ip ++ ds) * 10 ^ x.toNat, 10 ^ (ds.length + (-x).toNat)) := by
  have heh : ∀ c, ep.head? = some c → isDigit c = false := by
    intro c hc
    rcases exp_head he c hc with rfl | rfl <;> decide
  have h46 : ∀ t, ep ≠ 46 :: t := by
    rintro t rfl
    rcases exp_head he 46 rfl with h | h <;> cases h
  have hx := readExp he
  unfold readDecimal
  rcases hf with ⟨rfl, rfl⟩ | ⟨hds, rfl⟩
  · obtain ⟨h1, h2⟩ := span_digits (rest := ep) hip.2 heh
    have h3 : readFraction ep = ([], ep) := by
      unfold readFraction
      split
      · exact absurd rfl (h46 _)
      · rfl
    rw [List.append_nil, h1, h2]
    dsimp only
    rw [h3, natOfDigits_eq, hx]
    dsimp only
    rw [List.append_nil]
  · rw [List.append_assoc]
    obtain ⟨h1, h2⟩ := span_digits (rest := 46 :: ds ++ ep) hip.2 (by
      intro c hc
      cases hc
      decide)
    obtain ⟨h3, h4⟩ := span_digits (rest := ep) hds.2 heh
    have h5 : readFraction (46 :: ds ++ ep) = (ds, ep) := by
      show (List.takeWhile isDigit (ds ++ ep), List.dropWhile isDigit (ds ++ ep)) = _
      rw [h3, h4]
    rw [h1, h2]
    dsimp only
    rw [h5, natOfDigits_eq, hx]

theorem round_lt (num den : Nat) : roundFloat num den % 2 ^ 63 = roundFloat num den := by
  have h : roundFloat num den ≤ infinity := Nat.min_le_left _ _
  have : infinity < 2 ^ 63 := by decide
  exact Nat.mod_eq_of_lt (by omega)

theorem val_eq (f : F64) : f.val = f.sign * 2 ^ 63 + magnitude f := by
  unfold F64.sign magnitude
  omega

theorem sign_cases (f : F64) : f.sign = 0 ∨ f.sign = 1 := by
  have := f.isLt
  unfold F64.sign
  omega

theorem parse_spec {text : PyStr} {neg : Bool} {num den : Nat} (h : Literal text neg num den) (f : F64) :
    parseFloat text = f ↔ Nearest num den (magnitude f) ∧ f.sign = if neg then 1 else 0 := by
  obtain ⟨ip, fp, ep, ds, x, hip, hf, he, rfl, rfl, rfl⟩ := h
  have hden : 0 < 10 ^ (ds.length + (-x).toNat) := Nat.pow_pos (by decide)
  have key : (parseFloat (minus neg ++ ip ++ fp ++ ep)).val = (if neg then 2 ^ 63 else 0) +
      roundFloat (decimal (ip ++ ds) * 10 ^ x.toNat) (10 ^ (ds.length + (-x).toNat)) := by
    unfold parseFloat
    have hr := readDecimal_spec hip.1 hf he
    obtain ⟨d, t, rfl⟩ := List.exists_cons_of_ne_nil hip.1.1
    have hd := hip.1.2 d List.mem_cons_self
    cases neg with
    | true =>
      have h1 : (minus true ++ (d :: t) ++ fp ++ ep).head? = some 45 := rfl
      have h2 : (minus true ++ (d :: t) ++ fp ++ ep).drop 1 = d :: t ++ fp ++ ep := rfl
      dsimp only
      rw [h1, h2, if_pos rfl, if_pos rfl, hr, round_lt, if_pos rfl]
    | false =>
      have h1 : (minus false ++ (d :: t) ++ fp ++ ep).head? = some d := rfl
      have h2 : minus false ++ (d :: t) ++ fp ++ ep = d :: t ++ fp ++ ep := rfl
      have h3 : ¬ some d = some 45 := by
        intro h
        cases h
        omega
      dsimp only
      rw [h1, h2, if_neg h3, if_neg h3, hr, round_lt, if_neg (by decide)]
  rw [← round_iff hden, Fin.ext_iff, key, val_eq f]
  have h1 := sign_cases f
  have h2 : magnitude f < 2 ^ 63 := Nat.mod_lt _ (by decide)
  have h3 := round_lt (decimal (ip ++ ds) * 10 ^ x.toNat) (10 ^ (ds.length + (-x).toNat))
  generalize roundFloat _ _ = r at *
  have h4 : r < 2 ^ 63 := by omega
  cases neg
  · rw [if_neg (by decide), if_neg (by decide)]
    constructor
    · intro h; omega
    · rintro ⟨rfl, h⟩; omega
  · rw [if_pos rfl, if_pos rfl]
    constructor
    · intro h; omega
    · rintro ⟨rfl, h⟩; omega

/-! ## Writing -/

theorem natStr_Digits (n : Nat) : Digits (natStr n) := by
  obtain ⟨d, t, h, -⟩ := natStr_shape n
  exact ⟨by rw [h]; exact List.cons_ne_nil _ _, fun d hd => isDigit_iff.mp (natStr_digits n d hd)⟩

theorem zeros_digits (n : Nat) : ∀ d ∈ List.replicate n 48, 48 ≤ d ∧ d ≤ 57 := by
  intro d hd
  rw [List.eq_of_mem_replicate hd]
  decide

/-- The format has the parts of a number, and the number of the digits. -/
theorem format_parts (ds : PyStr) (hds : Digits ds) (h48 : ds.head? ≠ some 48) (p : Nat) :
    ReprText ds (ds.length + (p : Int) - 400) (formatRepr ds (ds.length + (p : Int) - 400)) ∧
    ∃ ip fp ep fs x, formatRepr ds (ds.length + (p : Int) - 400) = ip ++ fp ++ ep ∧ IntText ip ∧ Fraction fp fs ∧ Exponent ep x ∧
      (ep = [] ∨ ∃ g es, (g = 43 ∨ g = 45) ∧ Digits es ∧ ep = 101 :: g :: es) ∧ fp ++ ep ≠ [] ∧
      decimal (ip ++ fs) * 10 ^ x.toNat * 10 ^ 400 = decimal ds * 10 ^ p * 10 ^ (fs.length + (-x).toNat) := by
  have hn : 0 < ds.length := List.length_pos_iff.mpr hds.1
  have hbig : ∀ a b : Nat, a + 400 = p + b → decimal ds * 10 ^ a * 10 ^ 400 = decimal ds * 10 ^ p * 10 ^ b := by
    intro a b h
    rw [Nat.mul_assoc, Nat.mul_assoc, ← Nat.pow_add, ← Nat.pow_add, h]
  generalize hpt : (ds.length + (p : Int) - 400 : Int) = point
  unfold formatRepr
  by_cases h1 : -4 < point ∧ point ≤ 16
  · rw [if_pos h1]
    by_cases h2 : point ≤ 0
    · rw [if_pos h2]
      refine ⟨.small h1.1 h2, [48], 46 :: (List.replicate (-point).toNat 48 ++ ds), [], List.replicate (-point).toNat 48 ++ ds, 0, ?_, ?_,
        Or.inr ⟨⟨?_, ?_⟩, rfl⟩, Or.inl ⟨rfl, rfl⟩, Or.inl rfl, by simp, ?_⟩
      · simp
      · exact ⟨⟨by decide, by decide⟩, fun _ => rfl⟩
      · simp [hds.1]
      · intro d hd
        rcases List.mem_append.mp hd with hd | hd
        · exact zeros_digits _ d hd
        · exact hds.2 d hd
      · rw [decimal_append, decimal_append, decimal_zeros, show decimal [48] = 0 from rfl, List.length_append, List.length_replicate, Nat.zero_mul,
          Nat.zero_mul, Nat.zero_add, Nat.zero_add]
        exact hbig _ _ (by omega)
    · rw [if_neg h2]
      by_cases h3 : (ds.length : Int) ≤ point
      · rw [if_pos h3]
        refine ⟨.large h3 h1.2, ds ++ List.replicate (point.toNat - ds.length) 48, [46, 48], [], [48], 0, ?_, ⟨⟨?_, ?_⟩, ?_⟩,
          Or.inr ⟨⟨by decide, by decide⟩, rfl⟩, Or.inl ⟨rfl, rfl⟩, Or.inl rfl, by simp, ?_⟩
        · simp
        · simp [hds.1]
        · intro d hd
          rcases List.mem_append.mp hd with hd | hd
          · exact hds.2 d hd
          · exact zeros_digits _ d hd
        · intro h
          obtain ⟨d, t, rfl⟩ := List.exists_cons_of_ne_nil hds.1
          exact absurd h h48
        · rw [decimal_append, decimal_append, decimal_zeros, show decimal [48] = 0 from rfl, List.length_replicate]
          simp only [List.length_cons, List.length_nil, Nat.add_zero, Nat.mul_assoc, ← Nat.pow_add]
          congr 2
          show _ = p + (1 + 0)
          have : point.toNat - ds.length = p - 400 := by omega
          have h0 : (0 : Int).toNat = 0 := rfl
          omega
      · rw [if_neg h3]
        have hb : ds.drop point.toNat ≠ [] := by
          intro h
          have := List.drop_eq_nil_iff.mp h
          omega
        have hf : ds.take point.toNat ≠ [] := by
          intro h
          rcases List.take_eq_nil_iff.mp h with h | h
          · omega
          · exact hds.1 h
        refine ⟨.middle _ _ (List.take_append_drop _ _).symm ?_ hf hb h1.2, ds.take point.toNat, 46 :: ds.drop point.toNat, [],
          ds.drop point.toNat, 0, ?_, ⟨⟨hf, fun d hd => hds.2 d (List.mem_of_mem_take hd)⟩, ?_⟩,
          Or.inr ⟨⟨hb, fun d hd => hds.2 d (List.mem_of_mem_drop hd)⟩, rfl⟩, Or.inl ⟨rfl, rfl⟩, Or.inl rfl, by simp, ?_⟩
        · rw [List.length_take]
          omega
        · simp
        · intro h
          rw [List.head?_take] at h
          split at h
          · cases h
          · exact absurd h h48
        · rw [List.take_append_drop, List.length_drop]
          exact hbig _ _ (by omega)
  · rw [if_neg h1]
    obtain ⟨d, t, rfl⟩ := List.exists_cons_of_ne_nil hds.1
    have hd := hds.2 d List.mem_cons_self
    have hes := natStr_Digits (point - 1).natAbs
    have hval : decimal (natStr (point - 1).natAbs) = (point - 1).natAbs := by rw [← natOfDigits_eq, natOfDigits_natStr]
    obtain ⟨e0, et, he0, he1, he2⟩ := natStr_shape (point - 1).natAbs
    have hlen : 0 < (natStr (point - 1).natAbs).length := List.length_pos_iff.mpr hes.1
    obtain ⟨es, hes', hdes, hves, hl2, hm⟩ : ∃ es, (if (natStr (point - 1).natAbs).length = 1 then 48 :: natStr (point - 1).natAbs
        else natStr (point - 1).natAbs) = es ∧ Digits es ∧ decimal es = (point - 1).natAbs ∧ 2 ≤ es.length ∧
        (es.head? = some 48 → es.length = 2) := by
      by_cases h : (natStr (point - 1).natAbs).length = 1
      · refine ⟨48 :: natStr (point - 1).natAbs, if_pos h, ⟨by simp, ?_⟩, ?_, ?_, ?_⟩
        · intro x hx
          rcases List.mem_cons.mp hx with rfl | hx
          · decide
          · exact hes.2 x hx
        · rw [decimal, hval]
          simp
        · rw [List.length_cons]; omega
        · intro _; rw [List.length_cons]; omega
      · refine ⟨natStr (point - 1).natAbs, if_neg h, hes, hval, by omega, ?_⟩
        intro h'
        by_cases hz : (point - 1).natAbs = 0
        · rw [he0, (he2 hz).1] at h
          exact absurd rfl h
        · rw [he0] at h'
          cases h'
          exact absurd rfl (he1 hz)
    dsimp only
    rw [hes', List.take_succ_cons, List.take_zero, List.drop_succ_cons, List.drop_zero]
    obtain ⟨frac, fs, hfr, hfrac, hfs, hcase⟩ : ∃ frac fs, (if (d :: t).length = 1 then [] else 46 :: t) = frac ∧ Fraction frac fs ∧ fs = t ∧
        (t = [] ∧ frac = [] ∨ t ≠ [] ∧ frac = 46 :: t) := by
      cases t with
      | nil => exact ⟨[], [], rfl, Or.inl ⟨rfl, rfl⟩, rfl, Or.inl ⟨rfl, rfl⟩⟩
      | cons b t =>
        refine ⟨46 :: b :: t, b :: t, if_neg (by simp), Or.inr ⟨⟨by simp, fun x hx => hds.2 x (List.mem_cons_of_mem _ hx)⟩, rfl⟩, rfl,
          Or.inr ⟨by simp, rfl⟩⟩
    subst hfs
    rw [hfr]
    refine ⟨?_, [d], frac, 101 :: ((if point ≤ 0 then [45] else [43]) ++ es), fs, point - 1, ?_, ⟨⟨by simp, ?_⟩, fun h => ?_⟩, hfrac,
      Or.inr ⟨101, _, es, Or.inl rfl, hdes, rfl, ?_⟩, Or.inr ⟨if point ≤ 0 then 45 else 43, es, ?_, hdes, ?_⟩, by simp, ?_⟩
    · have := ReprText.exponent (ds := d :: fs) (point := point) d fs frac (if point ≤ 0 then [45] else [43]) es (by omega) rfl hcase rfl hdes hves hl2 hm
      simpa [List.append_assoc] using this
    · simp
    · intro x hx
      rw [List.mem_singleton.mp hx]
      exact hd
    · exact absurd h h48
    · rw [hves]
      split
      · exact Or.inr ⟨rfl, by omega⟩
      · exact Or.inl ⟨Or.inr rfl, by omega⟩
    · split
      · exact Or.inr rfl
      · exact Or.inl rfl
    · split <;> rfl
    · rw [List.singleton_append]
      rw [List.length_cons] at hpt
      exact hbig _ _ (by omega)

theorem natStr_head_ne {n : Nat} (h : 0 < n) : (natStr n).head? ≠ some 48 := by
  obtain ⟨d, t, h1, h2, -⟩ := natStr_shape n
  rw [h1]
  intro h3
  cases h3
  exact h2 (by omega) rfl

theorem finite_lt {f : F64} (h : f.isFinite = true) : magnitude f < infinity := by
  unfold F64.isFinite F64.expo at h
  unfold magnitude infinity
  have := f.isLt
  simp only [bne_iff_ne, ne_eq] at h
  omega

/-- The text of a finite float and its parts. -/
theorem repr_parts (f : F64) (hf : f.isFinite = true) :
    ∃ ip fp ep fs x, reprFloat f = minus (f.sign == 1) ++ ip ++ fp ++ ep ∧ IntText ip ∧ Fraction fp fs ∧ Exponent ep x ∧
      (ep = [] ∨ ∃ g es, (g = 43 ∨ g = 45) ∧ Digits es ∧ ep = 101 :: g :: es) ∧ fp ++ ep ≠ [] ∧
      Nearest (decimal (ip ++ fs) * 10 ^ x.toNat) (10 ^ (fs.length + (-x).toNat)) (magnitude f) := by
  have hm : (if f.sign = 1 then [45] else []) = minus (f.sign == 1) := by
    unfold minus
    rcases sign_cases f with h | h <;> rw [h] <;> rfl
  unfold reprFloat
  rw [hm]
  by_cases h0 : magnitude f = 0
  · rw [if_pos h0, h0]
    refine ⟨[48], [46, 48], [], [48], 0, by simp, ⟨⟨by decide, by decide⟩, fun _ => rfl⟩, Or.inr ⟨⟨by decide, by decide⟩, rfl⟩,
      Or.inl ⟨rfl, rfl⟩, Or.inl rfl, by simp, ?_⟩
    rw [show decimal ([48] ++ [48]) = 0 from rfl, Nat.zero_mul]
    refine ⟨Nat.zero_le _, fun c' _ hne => Or.inl ?_⟩
    have h1 : 0 < 10 ^ ([48].length + (-0 : Int).toNat) * units c' := Nat.mul_pos (by decide) (by
      have := units_lt (a := 0) (b := c') (by omega)
      rwa [show units 0 = 0 by decide] at this)
    rw [show units 0 = 0 by decide, Nat.mul_zero, Nat.zero_mul]
    generalize _ * units c' = u at *
    unfold apart
    omega
  · rw [if_neg h0]
    have hpos : 0 < magnitude f := by omega
    have hlt := finite_lt hf
    obtain ⟨k, -, -, -, hd0, -, hr, -⟩ := shortest_spec hpos hlt
    generalize shortest (magnitude f) = s at *
    obtain ⟨d, p⟩ := s
    dsimp only at *
    obtain ⟨-, ip, fp, ep, fs, x, h1, h2, h3, h4, h5, h6, h7⟩ := format_parts (natStr d) (natStr_Digits d) (natStr_head_ne hd0) p
    refine ⟨ip, fp, ep, fs, x, by rw [h1]; simp, h2, h3, h4, h5, h6, ?_⟩
    rw [← natOfDigits_eq (natStr d), natOfDigits_natStr] at h7
    exact (nearest_eq (Nat.pow_pos (by decide)) (Nat.pow_pos (by decide)) h7).mpr hr

theorem digits_cons {ds : PyStr} (h : Digits ds) : ∃ d t, ds = d :: t ∧ isDigit d = true ∧ ∀ x ∈ t, isDigit x = true := by
  obtain ⟨d, t, rfl⟩ := List.exists_cons_of_ne_nil h.1
  exact ⟨d, t, rfl, isDigit_iff.mpr (h.2 d List.mem_cons_self), fun x hx => isDigit_iff.mpr (h.2 x (List.mem_cons_of_mem _ hx))⟩

/-- The conversions of CPython have the properties that the other theorems assume of them. -/
theorem floats_laws : FloatLaws floats := by
  refine ⟨fun f hf => ?_, fun f hf => ?_⟩
  · obtain ⟨ip, fp, ep, fs, x, h1, h2, h3, h4, h5, h6, -⟩ := repr_parts f hf
    refine ⟨f.sign == 1, ip, fp, ep, h1, ⟨fun d hd => isDigit_iff.mpr (h2.1.2 d hd), ?_⟩, ?_, ?_, ?_⟩
    · obtain ⟨d, t, rfl, -⟩ := digits_cons h2.1
      refine ⟨d, t, rfl, fun h => ?_⟩
      have := h2.2 (by rw [h]; rfl)
      cases this
      rfl
    · rcases h3 with ⟨rfl, -⟩ | ⟨h3, rfl⟩
      · exact Or.inl rfl
      · obtain ⟨d, t, rfl, a, b⟩ := digits_cons h3
        exact Or.inr ⟨d, t, rfl, a, b⟩
    · rcases h5 with rfl | ⟨g, es, hg, hes, rfl⟩
      · exact Or.inl rfl
      · obtain ⟨d, t, rfl, a, b⟩ := digits_cons hes
        exact Or.inr ⟨101, g, d, t, rfl, Or.inl rfl, hg, a, b⟩
    · rintro ⟨rfl, rfl⟩
      exact h6 rfl
  · obtain ⟨ip, fp, ep, fs, x, h1, h2, h3, h4, -, -, h7⟩ := repr_parts f hf
    refine (parse_spec (neg := f.sign == 1) ⟨ip, fp, ep, fs, x, h2, h3, h4, h1, rfl, rfl⟩ f).mpr ⟨h7, ?_⟩
    rcases sign_cases f with h | h <;> rw [h] <;> rfl

end Psion.Real
