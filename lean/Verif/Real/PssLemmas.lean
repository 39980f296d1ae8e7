import Verif.Real.RsaLemmas

/-!
# RSASSA-PSS: signatures of genuine keys verify, with one length of salt
-/

namespace Psion.Real

open Psion Psion.Spec

/-! ## Lengths -/

theorem run_length (p : Sha2) (ks ws : List Nat) (a b c d e f g h : Nat) : (p.run ks ws a b c d e f g h).length = 8 := by
  induction ks generalizing ws a b c d e f g h with
  | nil => simp [Sha2.run]
  | cons k ks ih =>
    cases ws with
    | nil => simp [Sha2.run]
    | cons w ws =>
      rw [Sha2.run]
      simp only [force_eq]
      exact ih ..

theorem block_length (p : Sha2) (s ws : List Nat) (h : s.length = 8) : (p.block s ws).length = 8 := by
  unfold Sha2.block
  split
  · rw [List.length_zipWith, run_length]
    simp
  · exact h

theorem blocks_length (p : Sha2) (bs : List (List Nat)) (s : List Nat) (h : s.length = 8) : (bs.foldl p.block s).length = 8 := by
  induction bs generalizing s with
  | nil => exact h
  | cons b bs ih => exact ih _ (block_length p s b h)

theorem flat_length {α : Type} (l : List α) (f : α → Bytes) (k : Nat) (h : ∀ x, (f x).length = k) : (l.flatMap f).length = k * l.length := by
  induction l with
  | nil => simp
  | cons x l ih =>
    rw [List.flatMap_cons, List.length_append, ih, h, List.length_cons]
    ring

theorem hash_length (h : Hash) (m : Bytes) : ((sha2 h).hash m).length = (sha2 h).size := by
  unfold Sha2.hash
  simp only [List.length_take]
  rw [flat_length _ _ _ (fun x => octetsOf_length _ x), blocks_length]
  · cases h <;> rfl
  · cases h <;> rfl

theorem size_pos (h : Hash) : 0 < (sha2 h).size := by cases h <;> decide

theorem mgf1_length (h : Hash) (seed : Bytes) (len : Nat) : (mgf1 h seed len).length = len := by
  unfold mgf1
  rw [List.length_take, flat_length _ _ _ (fun i => hash_length h _), List.length_range]
  have := size_pos h
  have h2 := Nat.div_add_mod len (sha2 h).size
  have h3 := Nat.mod_lt len this
  apply Nat.min_eq_left
  rw [mul_add, mul_one]
  omega

/-! ## Masks -/

theorem byte_val (n : Nat) (h : n < 256) : (byte n).val = n := Nat.mod_eq_of_lt h

theorem xorBytes_length (a b : Bytes) (h : a.length = b.length) : (xorBytes a b).length = a.length := by
  unfold xorBytes
  rw [List.length_zipWith, h, Nat.min_self]

theorem xor_lt (a b : Byte) : a.val ^^^ b.val < 256 := Nat.xor_lt_two_pow (n := 8) a.isLt b.isLt

theorem xorBytes_twice (a b : Bytes) (h : a.length = b.length) : xorBytes (xorBytes a b) b = a := by
  induction a generalizing b with
  | nil => simp [xorBytes]
  | cons x a ih =>
    cases b with
    | nil => simp at h
    | cons y b =>
      simp only [xorBytes, List.zipWith_cons_cons, List.cons.injEq]
      refine ⟨?_, ih b (by simpa using h)⟩
      apply Fin.ext
      rw [byte_val _ (xor_lt x y), Nat.xor_assoc, Nat.xor_self, Nat.xor_zero, byte_val _ x.isLt]

theorem keepLow_length (j : Nat) (a : Bytes) : (keepLow j a).length = a.length := by cases a <;> rfl

theorem mod_lt_256 (j : Nat) (b : Byte) : b.val % 2 ^ j < 256 := lt_of_le_of_lt (Nat.mod_le _ _) b.isLt

theorem keepLow_twice (j : Nat) (a : Bytes) : keepLow j (keepLow j a) = keepLow j a := by
  cases a with
  | nil => rfl
  | cons x a =>
    simp only [keepLow, List.cons.injEq, and_true]
    rw [byte_val _ (mod_lt_256 j x), Nat.mod_mod]

theorem keepLow_mask (j : Nat) (a b : Bytes) (h : a.length = b.length) :
    keepLow j (xorBytes (keepLow j (xorBytes a b)) b) = keepLow j a := by
  cases a with
  | nil => rfl
  | cons x a =>
    cases b with
    | nil => simp at h
    | cons y b =>
      have ht := xorBytes_twice a b (by simpa using h)
      simp only [xorBytes, List.zipWith_cons_cons, keepLow, List.cons.injEq] at ht ⊢
      refine ⟨?_, ht⟩
      apply Fin.ext
      rw [byte_val _ (xor_lt x y), byte_val _ (xor_lt _ y), byte_val _ (lt_of_le_of_lt (Nat.mod_le _ _) (xor_lt x y)), byte_val _ (mod_lt_256 j _)]
      rw [Nat.xor_mod_two_pow, Nat.mod_mod, ← Nat.xor_mod_two_pow, Nat.xor_assoc, Nat.xor_self, Nat.xor_zero]
      exact byte_val _ (mod_lt_256 j x)

/-! ## Encoded messages -/

/-- The data block of an encoded message. -/
def dataBlock (zeros : Nat) (salt : Bytes) : Bytes := List.replicate zeros 0 ++ [1] ++ salt

theorem keepLow_dataBlock (j zeros : Nat) (hj : 1 ≤ j) (salt : Bytes) : keepLow j (dataBlock zeros salt) = dataBlock zeros salt := by
  have h1 : 1 % 2 ^ j = 1 := by
    apply Nat.mod_eq_of_lt
    calc 1 < 2 ^ 1 := by decide
      _ ≤ 2 ^ j := Nat.pow_le_pow_right (by decide) hj
  cases zeros with
  | zero =>
    simp only [dataBlock, List.replicate_zero, List.nil_append, List.singleton_append, keepLow, List.cons.injEq, and_true]
    apply Fin.ext
    show (byte (1 % 2 ^ j)).val = 1
    rw [h1]
    rfl
  | succ z =>
    simp only [dataBlock, List.replicate_succ, List.cons_append, keepLow, List.cons.injEq, and_true]
    apply Fin.ext
    show (byte (0 % 2 ^ j)).val = 0
    rw [Nat.zero_mod]
    rfl

theorem number_keepLow (j : Nat) (a : Bytes) (ha : a ≠ []) : number (keepLow j a) < 2 ^ j * 256 ^ (a.length - 1) := by
  cases a with
  | nil => exact absurd rfl ha
  | cons x a =>
    rw [keepLow, number_cons, byte_val _ (mod_lt_256 j x)]
    have h1 := number_lt a
    have h2 : x.val % 2 ^ j < 2 ^ j := Nat.mod_lt _ (Nat.pow_pos (by decide))
    simp only [List.length_cons, Nat.add_sub_cancel]
    calc x.val % 2 ^ j * 256 ^ a.length + number a < x.val % 2 ^ j * 256 ^ a.length + 256 ^ a.length := by omega
      _ = (x.val % 2 ^ j + 1) * 256 ^ a.length := by ring
      _ ≤ 2 ^ j * 256 ^ a.length := Nat.mul_le_mul_right _ h2

theorem number_append (a b : Bytes) : number (a ++ b) = number a * 256 ^ b.length + number b := by
  induction b using List.reverseRecOn with
  | nil => simp [number]
  | append_singleton b y ih =>
    rw [← List.append_assoc, number_snoc, ih, number_snoc, List.length_append, List.length_singleton, pow_succ]
    ring

theorem pssEncode_some {emBits : Nat} (hb : 0 < emBits) {h : Hash} {m salt em : Bytes} (he : pssEncode emBits h m salt = some em) :
    em.length = (emBits + 7) / 8 ∧ number em < 2 ^ emBits ∧ pssCheck emBits h salt.length m em = true := by
  unfold pssEncode at he
  simp only at he
  split at he
  · cases he
  · rename_i hlen
    cases he
    have hs := size_pos h
    generalize hem : (emBits + 7) / 8 = emLen at hlen ⊢
    generalize hhl : (sha2 h).size = hLen at *
    generalize hH : (sha2 h).hash (List.replicate 8 0 ++ (sha2 h).hash m ++ salt) = H
    have hHl : H.length = hLen := by rw [← hH, hash_length, hhl]
    change _ ∧ _ ∧ _
    have hdb : (List.replicate (emLen - salt.length - hLen - 2) 0 ++ [1] ++ salt : Bytes) =
        dataBlock (emLen - salt.length - hLen - 2) salt := rfl
    rw [hdb]
    have hdl : (dataBlock (emLen - salt.length - hLen - 2) salt).length = emLen - hLen - 1 := by
      simp only [dataBlock, List.length_append, List.length_replicate, List.length_singleton]
      omega
    have hml := mgf1_length h H (emLen - hLen - 1)
    generalize hdbg : dataBlock (emLen - salt.length - hLen - 2) salt = db at hdl
    generalize hmk : mgf1 h H (emLen - hLen - 1) = mask at hml
    generalize hj : 8 - (8 * emLen - emBits) = j
    have hj1 : 1 ≤ j := by omega
    have hxl : (xorBytes db mask).length = emLen - hLen - 1 := by rw [xorBytes_length _ _ (by rw [hdl, hml]), hdl]
    have hkl : (keepLow j (xorBytes db mask)).length = emLen - hLen - 1 := by rw [keepLow_length, hxl]
    have hkeep : keepLow j db = db := by rw [← hdbg, keepLow_dataBlock _ _ hj1]
    generalize hM : keepLow j (xorBytes db mask) = M at hkl
    have htot : (M ++ H ++ [0xbc]).length = emLen := by
      simp only [List.length_append, hkl, hHl, List.length_singleton]
      omega
    refine ⟨htot, ?_, ?_⟩
    · rw [List.append_assoc, number_append]
      have h1 : number M < 2 ^ j * 256 ^ (emLen - hLen - 1 - 1) := by
        rw [← hM]
        have := number_keepLow j (xorBytes db mask) (by intro h0; rw [h0] at hxl; simp at hxl; omega)
        rwa [hxl] at this
      have h2 := number_lt (H ++ [0xbc])
      have hl2 : (H ++ [0xbc] : Bytes).length = hLen + 1 := by simp [hHl]
      rw [hl2] at h2 ⊢
      have h3 : 2 ^ j * 256 ^ (emLen - hLen - 1 - 1) * 256 ^ (hLen + 1) = 2 ^ emBits := by
        rw [mul_assoc, ← pow_add, show (256 : Nat) = 2 ^ 8 by rfl, ← pow_mul, ← pow_add]
        congr 1
        omega
      calc number M * 256 ^ (hLen + 1) + number (H ++ [0xbc]) < number M * 256 ^ (hLen + 1) + 256 ^ (hLen + 1) := by omega
        _ = (number M + 1) * 256 ^ (hLen + 1) := by ring
        _ ≤ 2 ^ j * 256 ^ (emLen - hLen - 1 - 1) * 256 ^ (hLen + 1) := Nat.mul_le_mul_right _ h1
        _ = 2 ^ emBits := h3
    · have e1 : (M ++ H ++ [0xbc]).take (emLen - hLen - 1) = M := by
        rw [List.append_assoc, ← hkl, List.take_left']
        rfl
      have e2 : ((M ++ H ++ [0xbc]).drop (emLen - hLen - 1)).take hLen = H := by
        rw [List.append_assoc, ← hkl, List.drop_left', ← hHl, List.take_left']
        · rfl
        · rfl
      have e3 : (M ++ H ++ [0xbc]).drop (emLen - 1) = [0xbc] := by
        rw [List.drop_left']
        simp only [List.length_append, hkl, hHl]
        omega
      have e4 : keepLow j (xorBytes M mask) = db := by
        rw [← hM, keepLow_mask _ _ _ (by rw [hdl, hml]), hkeep]
      have e5 : keepLow j M = M := by rw [← hM, keepLow_twice]
      have e6 : db.drop (emLen - hLen - salt.length - 1) = salt := by
        rw [← hdbg, dataBlock, List.drop_left']
        simp only [List.length_append, List.length_replicate, List.length_singleton]
        omega
      have e7 : db.take (emLen - hLen - salt.length - 1) = List.replicate (emLen - salt.length - hLen - 2) 0 ++ [1] := by
        rw [← hdbg, dataBlock, List.take_left']
        simp only [List.length_append, List.length_replicate, List.length_singleton]
        omega
      unfold pssCheck
      simp only [hem, hhl, hj, e1, e2, hmk, e3, e4, e5, e6, e7, hH, htot, decide_true, beq_self_eq_true, Bool.and_true, Bool.true_and,
        decide_eq_true_eq]
      omega

theorem pss_holds {n e : Nat} {r : RsaPriv} (k : RsaKey n e r) {h : Hash} {l : Nat} {m sig : Bytes} {seed : Nat}
    (hs : pssSign n r.d h l m seed = .ok sig) : pssHolds n e h l m sig = true := by
  unfold pssSign at hs
  split at hs
  · rename_i em he
    cases hs
    have hn := k.ne_zero
    have hb : 0 < bits n - 1 := by
      have h4 : 4 ≤ n := by
        rw [k.n]
        exact Nat.mul_le_mul k.p.two_le k.q.two_le
      have := lt_bits n
      by_contra hc
      have : bits n ≤ 1 := by omega
      have h2 := Nat.pow_le_pow_right (show 0 < 2 by decide) this
      omega
    obtain ⟨hl, hlt, hc⟩ := pssEncode_some hb he
    rw [octetsOf_length] at hc
    unfold pssHolds
    rw [rsaPublic_private k em (lt_of_lt_of_le hlt (bits_le hn))]
    simp only [Bool.and_eq_true, decide_eq_true_eq]
    have := number_lt em
    rw [hl] at this
    refine ⟨this, ?_⟩
    rw [octetsOf_eq, ← hl, octets_number]
    exact hc
  · cases hs

theorem pss_salt {n e : Nat} {h : Hash} {l l' : Nat} {m sig : Bytes} (h1 : pssHolds n e h l m sig = true)
    (h2 : pssHolds n e h l' m sig = true) : l = l' := by
  unfold pssHolds at h1 h2
  split at h1
  · rename_i v hv
    rw [hv] at h2
    simp only [Bool.and_eq_true] at h1 h2
    replace h1 := h1.2
    replace h2 := h2.2
    unfold pssCheck at h1 h2
    simp only [Bool.and_eq_true, decide_eq_true_eq, beq_iff_eq] at h1 h2
    obtain ⟨⟨⟨⟨⟨-, g1⟩, -⟩, -⟩, h1⟩, -⟩ := h1
    obtain ⟨⟨⟨⟨⟨-, g2⟩, -⟩, -⟩, h2⟩, -⟩ := h2
    revert h1 h2
    generalize keepLow _ _ = db
    revert g1 g2
    generalize (sha2 h).size = hLen
    generalize (bits n - 1 + 7) / 8 = emLen
    intro g1 g2 h1 h2
    have key : ∀ a b : Nat, hLen + a + 2 ≤ emLen → hLen + b + 2 ≤ emLen →
        db.take (emLen - hLen - a - 1) = List.replicate (emLen - a - hLen - 2) 0 ++ [1] →
        db.take (emLen - hLen - b - 1) = List.replicate (emLen - b - hLen - 2) 0 ++ [1] → ¬ a < b := by
      intro a b ga gb ha hb hab
      have x1 := congrArg (·[emLen - b - hLen - 2]?) ha
      have x2 := congrArg (·[emLen - b - hLen - 2]?) hb
      simp only [List.getElem?_take] at x1 x2
      rw [if_pos (by omega)] at x1 x2
      rw [x1] at x2
      rw [List.getElem?_append_left (by simp; omega), List.getElem?_append_right (by simp)] at x2
      simp only [List.length_replicate, Nat.sub_self] at x2
      rw [List.getElem?_replicate, if_pos (by omega)] at x2
      simp at x2
    have := key l l' g1 g2 h1 h2
    have := key l' l g2 g1 h2 h1
    omega
  · cases h1

end Psion.Real
