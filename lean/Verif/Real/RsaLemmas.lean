import Verif.Real.Crypto
import Verif.Spec.Rfc8017
import Mathlib.FieldTheory.Finite.Basic

/-!
# Signatures of genuine RSA keys verify
-/

namespace Psion.Real

open Psion Psion.Spec

/-! ## Octets and numbers -/

theorem octetsOf_eq (len n : Nat) : octetsOf len n = octets len n := by
  induction len generalizing n with
  | zero => rfl
  | succ len ih => rw [octetsOf, force_eq, ih, octets]

theorem octets_len (len n : Nat) : (octets len n).length = len := by
  induction len generalizing n with
  | zero => rfl
  | succ len ih => simp [octets, ih]

theorem octetsOf_length (len n : Nat) : (octetsOf len n).length = len := by rw [octetsOf_eq, octets_len]

theorem number_snoc (b : Bytes) (x : Byte) : number (b ++ [x]) = 256 * number b + x.val := by
  simp [number, List.foldl_append, force_eq]

theorem number_octets (len n : Nat) (h : n < 256 ^ len) : number (octets len n) = n := by
  induction len generalizing n with
  | zero => simp at h; subst h; rfl
  | succ len ih =>
    rw [octets, number_snoc, ih _ (by rw [pow_succ] at h; omega)]
    simp only [byte]
    omega

theorem number_lt (b : Bytes) : number b < 256 ^ b.length := by
  induction b using List.reverseRecOn with
  | nil => simp [number]
  | append_singleton b x ih =>
    rw [number_snoc, List.length_append, List.length_singleton, pow_succ]
    have := x.isLt
    omega

theorem octets_number (b : Bytes) : octets b.length (number b) = b := by
  induction b using List.reverseRecOn with
  | nil => rfl
  | append_singleton b x ih =>
    rw [number_snoc, List.length_append, List.length_singleton, octets]
    have hx := x.isLt
    rw [show (256 * number b + x.val) / 256 = number b by omega, ih]
    congr 2
    apply Fin.ext
    simp only [byte]
    omega

theorem number_cons (x : Byte) (b : Bytes) : number (x :: b) = x.val * 256 ^ b.length + number b := by
  induction b using List.reverseRecOn with
  | nil => simp [number, force_eq]
  | append_singleton b y ih =>
    rw [← List.cons_append, number_snoc, ih, number_snoc, List.length_append, List.length_singleton, pow_succ]
    ring

/-! ## Powers -/

theorem powModAux_eq (n fuel b e a : Nat) (h : e < 2 ^ fuel) : powModAux n fuel b e (a % n) = a * b ^ e % n := by
  induction fuel generalizing b e a with
  | zero =>
    simp at h
    subst h
    simp [powModAux]
  | succ fuel ih =>
    rw [powModAux]
    simp only [force_eq]
    have hlt : e / 2 < 2 ^ fuel := by rw [pow_succ] at h; omega
    have hsq : ∀ a, a * (b * b % n) ^ (e / 2) % n = a * (b ^ 2) ^ (e / 2) % n := by
      intro a
      rw [Nat.mul_mod, ← Nat.pow_mod, ← Nat.mul_mod, pow_two]
    split
    · rename_i ho
      rw [show a % n * b % n = a * b % n from Nat.mod_mul_mod a b n, ih _ _ _ hlt, hsq, ← pow_mul, mul_assoc, ← pow_succ']
      congr 3
      omega
    · rename_i ho
      rw [ih _ _ _ hlt, hsq, ← pow_mul]
      congr 3
      omega

theorem lt_bits (n : Nat) : n < 2 ^ bits n := by
  unfold bits
  split
  · rename_i h; subst h; decide
  · exact Nat.lt_log2_self

theorem bits_le {n : Nat} (h : n ≠ 0) : 2 ^ (bits n - 1) ≤ n := by
  unfold bits
  rw [if_neg h]
  exact Nat.log2_self_le h

theorem powMod_eq (b e n : Nat) : powMod b e n = b ^ e % n := by
  unfold powMod
  rw [powModAux_eq _ _ _ _ _ (lt_bits e), one_mul, ← Nat.pow_mod]

theorem pow_mod_prime {p : Nat} (hp : p.Prime) (m ed : Nat) (h0 : 0 < ed) (h : ed % (p - 1) = 1 % (p - 1)) : m ^ ed ≡ m [MOD p] := by
  obtain ⟨k, hk⟩ : ∃ k, ed = 1 + k * (p - 1) := by
    have hm : 1 ≡ ed [MOD p - 1] := h.symm
    obtain ⟨k, hk⟩ := (Nat.modEq_iff_dvd' h0).mp hm
    exact ⟨k, by rw [mul_comm]; omega⟩
  by_cases hm : p ∣ m
  · have : m ≡ 0 [MOD p] := (Nat.modEq_zero_iff_dvd).mpr hm
    have h2 := this.pow ed
    rw [zero_pow (by omega)] at h2
    exact h2.trans this.symm
  · have hc : Nat.Coprime m p := ((Nat.Prime.coprime_iff_not_dvd hp).mpr hm).symm
    have h1 := Nat.ModEq.pow_totient hc
    rw [Nat.totient_prime hp] at h1
    have h2 := h1.pow k
    rw [one_pow, ← pow_mul, mul_comm] at h2
    have h3 := (Nat.ModEq.refl (n := p) m).mul h2
    rw [mul_one, ← pow_succ', add_comm, ← hk] at h3
    exact h3

theorem rsa_inverse {n e : Nat} {r : RsaPriv} (k : RsaKey n e r) (m : Nat) (hm : m < n) : powMod (powMod m r.d n) e n = m := by
  rw [powMod_eq, powMod_eq, ← Nat.pow_mod, ← pow_mul, mul_comm]
  have h1 := pow_mod_prime k.p m _ k.pos k.dp
  have h2 := pow_mod_prime k.q m _ k.pos k.dq
  have h3 := (Nat.modEq_and_modEq_iff_modEq_mul ((Nat.coprime_primes k.p k.q).mpr k.ne)).mp ⟨h1, h2⟩
  rw [← k.n] at h3
  rw [h3, Nat.mod_eq_of_lt hm]

theorem _root_.Psion.Spec.RsaKey.ne_zero {n e : Nat} {r : RsaPriv} (k : RsaKey n e r) : n ≠ 0 := by
  rw [k.n]
  exact Nat.mul_ne_zero k.p.ne_zero k.q.ne_zero

/-- The public operation undoes the private one. -/
theorem rsaPublic_private {n e : Nat} {r : RsaPriv} (k : RsaKey n e r) (em : Bytes) (hm : number em < n) :
    rsaPublic n e (rsaPrivate n r.d em) = some (number em) := by
  have hn := k.ne_zero
  have hlt : powMod (number em) r.d n < n := by rw [powMod_eq]; exact Nat.mod_lt _ (Nat.pos_of_ne_zero hn)
  have hsz : n < 256 ^ modulusSize n := by
    refine lt_of_lt_of_le (lt_bits n) ?_
    rw [show (256 : Nat) = 2 ^ 8 by rfl, ← pow_mul]
    apply Nat.pow_le_pow_right (by decide)
    unfold modulusSize
    omega
  unfold rsaPublic rsaPrivate
  rw [octetsOf_length, octetsOf_eq, number_octets _ _ (lt_trans hlt hsz), if_pos ⟨rfl, hlt⟩, rsa_inverse k _ hm]

/-! ## RSASSA-PKCS1-v1_5 -/

theorem pkcsEncode_some {k : Nat} {h : Hash} {m em : Bytes} (he : pkcsEncode k h m = some em) :
    em.length = k ∧ number em < 256 ^ (k - 1) := by
  unfold pkcsEncode at he
  simp only at he
  split at he
  · cases he
  · rename_i hk
    cases he
    have hl : ([0, 1] ++ List.replicate (k - (digestInfo h ++ (sha2 h).hash m).length - 3) 255 ++ [0] ++
        (digestInfo h ++ (sha2 h).hash m) : Bytes).length = k := by
      simp only [List.length_append, List.length_replicate, List.length_cons, List.length_nil] at hk ⊢
      omega
    refine ⟨hl, ?_⟩
    simp only [List.cons_append, List.length_cons] at hl ⊢
    rw [number_cons]
    simp only [Fin.val_zero, Nat.zero_mul, Nat.zero_add]
    refine lt_of_lt_of_le (number_lt _) ?_
    simp only [List.length_cons]
    apply Nat.pow_le_pow_right (by decide)
    omega

theorem size_le {n : Nat} (h : n ≠ 0) : 256 ^ (modulusSize n - 1) ≤ n := by
  refine le_trans ?_ (bits_le h)
  rw [show (256 : Nat) = 2 ^ 8 by rfl, ← pow_mul]
  apply Nat.pow_le_pow_right (by decide)
  unfold modulusSize
  omega

theorem pkcs_holds {n e : Nat} {r : RsaPriv} (k : RsaKey n e r) {h : Hash} {m sig : Bytes} (hs : pkcsSign n r.d h m = .ok sig) :
    pkcsHolds n e h m sig = true := by
  unfold pkcsSign at hs
  split at hs
  · rename_i em he
    cases hs
    obtain ⟨hl, hlt⟩ := pkcsEncode_some he
    unfold pkcsHolds
    rw [rsaPublic_private k em (lt_of_lt_of_le hlt (size_le k.ne_zero)), he]
    simp only [beq_iff_eq]
    rw [octetsOf_eq, ← hl, octets_number]
  · cases hs

end Psion.Real
