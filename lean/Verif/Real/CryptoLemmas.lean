import Verif.Real.PssLemmas

/-!
# The real algorithms do what the package documents
-/

namespace Psion.Real

open Psion Psion.Spec

theorem readDer_put (tag : Byte) (content rest : Bytes) (h : content.length < 256) :
    readDer (tag :: (derLength content.length ++ content ++ rest)) = some (tag.val, content, rest) := by
  have cut : ∀ t, readDer.cut t content.length (content ++ rest) = some (t, content, rest) := by
    intro t
    unfold readDer.cut
    rw [if_neg (by simp), List.take_left', List.drop_left'] <;> rfl
  unfold derLength
  split
  · rename_i hl
    show readDer (tag :: byte content.length :: (content ++ rest)) = _
    unfold readDer
    simp only
    rw [byte_val _ (by omega), if_pos hl, cut]
  · rename_i hl
    show readDer (tag :: 129 :: byte content.length :: (content ++ rest)) = _
    unfold readDer
    simp only
    rw [if_neg (by decide), if_neg (by simp)]
    show readDer.cut _ (number [byte content.length]) (content ++ rest) = _
    rw [show number [byte content.length] = content.length from (number_snoc [] _).trans (by rw [byte_val _ h]; simp [number]), cut]

theorem bits_lt {n k : Nat} (h : n < 2 ^ k) : bits n ≤ k := by
  unfold bits
  split
  · omega
  · rename_i h0
    have := (Nat.log2_lt h0).mpr h
    omega

theorem number_derOctets (n : Nat) : number (octets (bits n / 8 + 1) n) = n := by
  apply number_octets
  refine lt_of_lt_of_le (lt_bits n) ?_
  rw [show (256 : Nat) = 2 ^ 8 by rfl, ← pow_mul]
  apply Nat.pow_le_pow_right (by decide)
  omega

theorem readSig_derSig (r s : Nat) (hr : bits r ≤ 521) (hs : bits s ≤ 521) : readSig (derSig r s) = some (r, s) := by
  have hl : ∀ n, bits n ≤ 521 → (octets (bits n / 8 + 1) n).length < 128 := by
    intro n h
    rw [octets_len]
    omega
  have one : ∀ n, derNumber n = 2 :: (derLength (octets (bits n / 8 + 1) n).length ++ octets (bits n / 8 + 1) n) := by
    intro n
    rw [octets_len]
    rfl
  have hdl : ∀ n, bits n ≤ 521 → (derNumber n).length ≤ 68 := by
    intro n h
    rw [one, List.length_cons, List.length_append, derLength, if_pos (hl n h), octets_len]
    simp
    omega
  have hall : readAll 9 (derNumber r ++ derNumber s) = some [(2, octets (bits r / 8 + 1) r), (2, octets (bits s / 8 + 1) s)] := by
    have h1 : readDer (derNumber r ++ derNumber s) = some (2, octets (bits r / 8 + 1) r, derNumber s) := by
      rw [one r]
      have := readDer_put 2 (octets (bits r / 8 + 1) r) (derNumber s) (by have := hl r hr; omega)
      simpa using this
    have h2 : readDer (derNumber s) = some (2, octets (bits s / 8 + 1) s, []) := by
      conv => lhs; rw [one s]
      have := readDer_put 2 (octets (bits s / 8 + 1) s) [] (by have := hl s hs; omega)
      simpa using this
    obtain ⟨x, xs, hx⟩ : ∃ x xs, derNumber r ++ derNumber s = x :: xs := ⟨_, _, by rw [one r]; rfl⟩
    obtain ⟨y, ys, hy⟩ : ∃ x xs, derNumber s = x :: xs := ⟨_, _, one s⟩
    rw [hx] at h1 ⊢
    rw [hy] at h1 h2
    simp only [readAll, h1, h2]
    rfl
  have hseq : readSeq (derSig r s) = some [(2, octets (bits r / 8 + 1) r), (2, octets (bits s / 8 + 1) s)] := by
    have h0 : (derNumber r ++ derNumber s).length < 256 := by
      rw [List.length_append]
      have := hdl r hr
      have := hdl s hs
      omega
    have := readDer_put 48 (derNumber r ++ derNumber s) [] h0
    unfold readSeq
    have e : derSig r s = 48 :: (derLength (derNumber r ++ derNumber s).length ++ (derNumber r ++ derNumber s) ++ []) := by
      unfold derSig
      simp
    rw [e, this]
    exact hall
  unfold readSig
  rw [hseq]
  simp only [number_derOctets, if_true]

theorem order_bits (c : Curve) : (domain c).n < 2 ^ 521 := by cases c <;> decide +kernel

theorem documented : Documented arith crypto where
  hmac _ _ _ := rfl
  ecSign _ _ _ _ _ _ _ := rfl
  ecVerify c x y h m sig := by
    show (match readSig sig with
      | some (r, s) => ecdsaHolds c x y h m r s
      | none => false) = true ↔ ∃ r s, sig = derSig r s ∧ ecdsaHolds c x y h m r s = true
    constructor
    · intro hv
      split at hv
      · rename_i r s hs
        refine ⟨r, s, ?_, hv⟩
        unfold readSig at hs
        split at hs
        · split at hs
          · rename_i he
            cases hs
            exact he.symm
          · cases hs
        · cases hs
      · cases hv
    · rintro ⟨r, s, rfl, hv⟩
      have hlt : r < (domain c).n ∧ s < (domain c).n := by
        unfold ecdsaHolds at hv
        simp only [Bool.and_eq_true, decide_eq_true_eq] at hv
        exact ⟨hv.1.2.1, hv.1.2.2.2⟩
      rw [readSig_derSig r s (bits_lt (lt_trans hlt.1 (order_bits c))) (bits_lt (lt_trans hlt.2 (order_bits c)))]
      exact hv
  pkcsSign _ _ _ _ _ _ := rfl
  pkcsVerify _ _ _ _ _ := rfl
  pssSign _ _ _ _ _ _ := rfl
  pssVerify _ _ _ _ _ := rfl

theorem laws (key : Material) (hk : ∀ n e r, key = .rsa n e (some r) → RsaKey n e r) : ArithLaws arith key where
  pkcs n e r _ _ _ _ hm hs := congrArg Except.ok (pkcs_holds (hk n e r hm) hs)
  pss n e r _ _ _ _ _ hm hs := congrArg Except.ok (pss_holds (hk n e r hm) hs)
  salt _ _ _ _ _ _ _ h1 h2 := pss_salt (Except.ok.inj h1) (Except.ok.inj h2)

end Psion.Real
