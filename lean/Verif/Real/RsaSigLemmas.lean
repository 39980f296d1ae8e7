import Verif.Real.Sha2Lemmas

/-!
# RSA signatures are those of RFC 8017
-/

namespace Psion.Real

open Psion Psion.Spec

theorem value_number (b : Bytes) : octetsValue b = number b := (number_bits b).symm

theorem number_inj {a b : Bytes} (hl : a.length = b.length) (h : number a = number b) : a = b := by
  rw [← octets_number a, ← octets_number b, hl, h]

theorem digest_hash (h : Hash) (m : Bytes) : Digest h m ((sha2 h).hash m) := (digest_iff h m _).mpr rfl

/-! ## RSASSA-PKCS1-v1_5 -/

theorem digestInfo_eq (h : Hash) (d : Bytes) (hd : d.length = (sha2 h).size) : rsaDigestInfo h d = digestInfo h ++ d := by
  cases h
  · have hd : d.length = 32 := hd
    have e1 : derValue 4 d = [4, 32] ++ d := by rw [derValue, hd]; rfl
    rw [rsaDigestInfo, e1, ← List.append_assoc, derValue, List.length_append, hd]
    show _ ++ (_ ++ d) = _
    rw [← List.append_assoc]
    rfl
  · have hd : d.length = 48 := hd
    have e1 : derValue 4 d = [4, 48] ++ d := by rw [derValue, hd]; rfl
    rw [rsaDigestInfo, e1, ← List.append_assoc, derValue, List.length_append, hd]
    show _ ++ (_ ++ d) = _
    rw [← List.append_assoc]
    rfl
  · have hd : d.length = 64 := hd
    have e1 : derValue 4 d = [4, 64] ++ d := by rw [derValue, hd]; rfl
    rw [rsaDigestInfo, e1, ← List.append_assoc, derValue, List.length_append, hd]
    show _ ++ (_ ++ d) = _
    rw [← List.append_assoc]
    rfl

theorem pkcsEncoded_iff (k : Nat) (h : Hash) (m em : Bytes) : PkcsEncoded k h m em ↔ pkcsEncode k h m = some em := by
  constructor
  · rintro ⟨digest, fill, hd, hf, rfl, hl⟩
    obtain rfl := (digest_iff ..).mp hd
    rw [digestInfo_eq _ _ (hash_length h m)] at hl ⊢
    unfold pkcsEncode
    simp only
    generalize digestInfo h ++ (sha2 h).hash m = t at *
    simp only [List.length_cons, List.length_append, List.length_replicate] at hl
    rw [if_neg (by omega), show k - t.length - 3 = fill by omega]
    simp
  · intro he
    have hlen := (pkcsEncode_some he).1
    unfold pkcsEncode at he
    simp only at he
    split at he
    · cases he
    · rename_i hk
      cases he
      refine ⟨_, k - (digestInfo h ++ (sha2 h).hash m).length - 3, digest_hash h m, by omega, ?_, hlen⟩
      rw [digestInfo_eq _ _ (hash_length h m)]
      simp

theorem lt_size (n : Nat) : n < 256 ^ ((bits n + 7) / 8) := by
  refine lt_of_lt_of_le (lt_bits n) ?_
  rw [show (256 : Nat) = 2 ^ 8 by rfl, ← pow_mul]
  apply Nat.pow_le_pow_right (by decide)
  omega

theorem rsaPublic_iff (n e : Nat) (sig : Bytes) (v : Nat) : rsaPublic n e sig = some v ↔
    sig.length = (bits n + 7) / 8 ∧ octetsValue sig < n ∧ octetsValue sig ^ e % n = v := by
  rw [rsaPublic, value_number, modulusSize]
  by_cases h : sig.length = (bits n + 7) / 8 ∧ number sig < n
  · rw [if_pos h, powMod_eq]
    simp [h]
  · rw [if_neg h]
    constructor
    · intro h0; cases h0
    · rintro ⟨h1, h2, -⟩; exact absurd ⟨h1, h2⟩ h

theorem pkcs_iff (n e : Nat) (h : Hash) (m sig : Bytes) :
    pkcsHolds n e h m sig = true ↔ ∃ em, PkcsEncoded ((bits n + 7) / 8) h m em ∧ RsaOpens n e sig em := by
  unfold pkcsHolds
  constructor
  · intro hh
    split at hh
    · rename_i v em hv he
      rw [beq_iff_eq, octetsOf_eq, modulusSize] at hh
      obtain ⟨h1, h2, h3⟩ := (rsaPublic_iff ..).mp hv
      refine ⟨em, (pkcsEncoded_iff ..).mpr he, h1, h2, ?_⟩
      rw [h3, ← hh, value_number, number_octets]
      rw [← h3]
      exact lt_trans (Nat.mod_lt _ (Nat.zero_lt_of_lt h2)) (lt_size n)
    · cases hh
  · rintro ⟨em, he, h1, h2, h3⟩
    have he := (pkcsEncoded_iff ..).mp he
    have hl := (pkcsEncode_some he).1
    rw [(rsaPublic_iff ..).mpr ⟨h1, h2, h3⟩, modulusSize, he]
    simp only [beq_iff_eq]
    rw [octetsOf_eq, value_number, ← hl, octets_number]

/-! ## RSASSA-PSS -/

theorem masks_take (f : Nat → Bytes) (s a b len : Nat) (hf : ∀ i, (f i).length = s) (hab : a ≤ b) (hl : len ≤ s * a) :
    ((List.range b).flatMap f).take len = ((List.range a).flatMap f).take len := by
  obtain ⟨c, rfl⟩ := Nat.exists_eq_add_of_le hab
  rw [List.range_add, List.flatMap_append, List.take_append_of_le_length]
  rw [flat_length _ _ s hf, List.length_range]
  exact hl

theorem mgf1_iff (h : Hash) (seed : Bytes) (len : Nat) (mask : Bytes) : Mgf1 h seed len mask ↔ mgf1 h seed len = mask := by
  have hf : ∀ i, ((sha2 h).hash (seed ++ octetsOf 4 i)).length = (sha2 h).size := fun i => hash_length h _
  have hs := size_pos h
  have hlen : len ≤ (sha2 h).size * (len / (sha2 h).size + 1) := by
    have h2 := Nat.div_add_mod len (sha2 h).size
    have h3 := Nat.mod_lt len hs
    rw [mul_add, mul_one]
    omega
  constructor
  · rintro ⟨pieces, hp, hl, rfl⟩
    have hpieces : pieces = (List.range pieces.length).map (fun i => (sha2 h).hash (seed ++ octetsOf 4 i)) := by
      apply List.ext_getElem
      · simp
      · intro i h1 h2
        rw [List.getElem_map, List.getElem_range, octetsOf_eq]
        exact ((digest_iff ..).mp (hp i _ (List.getElem?_eq_getElem h1))).symm
    have hflat : pieces.flatten = (List.range pieces.length).flatMap (fun i => (sha2 h).hash (seed ++ octetsOf 4 i)) := by
      conv_lhs => rw [hpieces]
      rw [List.flatMap_def]
    rw [hflat] at hl ⊢
    rw [flat_length _ _ _ hf, List.length_range] at hl
    unfold mgf1
    rcases Nat.le_total pieces.length (len / (sha2 h).size + 1) with hle | hle
    · exact masks_take _ _ _ _ _ hf hle hl
    · exact (masks_take _ _ _ _ _ hf hle hlen).symm
  · rintro rfl
    refine ⟨(List.range (len / (sha2 h).size + 1)).map (fun i => (sha2 h).hash (seed ++ octetsOf 4 i)), ?_, ?_, ?_⟩
    · intro i piece hp
      rw [List.getElem?_map] at hp
      obtain ⟨j, hj, rfl⟩ := Option.map_eq_some_iff.mp hp
      obtain ⟨hi, rfl⟩ := List.getElem?_eq_some_iff.mp hj
      rw [List.getElem_range]
      rw [octetsOf_eq]
      exact digest_hash ..
    · rw [← List.flatMap_def, flat_length _ _ _ hf, List.length_range]
      exact hlen
    · rw [← List.flatMap_def]
      rfl

theorem bitsOf_xor (n x y : Nat) : bitsOf n (x ^^^ y) = List.zipWith xor (bitsOf n x) (bitsOf n y) := by
  unfold bitsOf
  rw [List.zipWith_map, List.zipWith_self]
  apply List.map_congr_left
  intro i _
  rw [Nat.testBit_xor]

theorem octetBits_cons (x : Byte) (m : Bytes) : octetBits (x :: m) = bitsOf 8 x.val ++ octetBits m := rfl

theorem octetBits_xor (a b : Bytes) : octetBits (xorBytes a b) = List.zipWith xor (octetBits a) (octetBits b) := by
  induction a generalizing b with
  | nil => simp [xorBytes, octetBits]
  | cons x a ih =>
    cases b with
    | nil => simp [xorBytes, octetBits]
    | cons y b =>
      have := ih b
      unfold xorBytes at this ⊢
      rw [List.zipWith_cons_cons, octetBits_cons, octetBits_cons, octetBits_cons, this,
        List.zipWith_append (by rw [bitsOf_length, bitsOf_length]), byte_val _ (xor_lt x y), bitsOf_xor]

theorem bitsOf_zero (n : Nat) : bitsOf n 0 = List.replicate n false := by
  unfold bitsOf
  simp only [Nat.zero_testBit]
  rw [List.map_const', List.length_range]

theorem octetBits_keepLow (t : Nat) (ht : t ≤ 8) (a : Bytes) (ha : a ≠ []) :
    octetBits (keepLow (8 - t) a) = List.replicate t false ++ (octetBits a).drop t := by
  cases a with
  | nil => exact absurd rfl ha
  | cons x a =>
    have key : ∀ y, bitsOf 8 y = bitsOf t (y / 2 ^ (8 - t)) ++ bitsOf (8 - t) y := by
      intro y
      rw [← bitsOf_add]
      congr 1
      omega
    have hz : x.val % 2 ^ (8 - t) / 2 ^ (8 - t) = 0 := Nat.div_eq_of_lt (Nat.mod_lt _ (Nat.pow_pos (by decide)))
    have hd : (bitsOf 8 x.val).drop t = bitsOf (8 - t) x.val := by
      rw [key, List.drop_left' (bitsOf_length ..)]
    rw [keepLow, octetBits_cons, octetBits_cons, byte_val _ (mod_lt_256 _ x), key, hz, bitsOf_zero, bitsOf_mod,
      List.drop_append_of_le_length (by rw [bitsOf_length]; exact ht), hd, List.append_assoc]

theorem pssEncoded_iff (size : Nat) (h : Hash) (l : Nat) (m em : Bytes) :
    PssEncoded size h l m em ↔ ∃ salt, salt.length = l ∧ pssEncode size h m salt = some em := by
  have ht : 8 * ((size + 7) / 8) - size ≤ 7 := by omega
  generalize hT : 8 * ((size + 7) / 8) - size = t at ht
  constructor
  · rintro ⟨digest, salt, hashed, masked, mask, zeros, h1, h2, h3, h4, h5, rfl, h7⟩
    obtain rfl := (digest_iff ..).mp h1
    obtain rfl := (digest_iff ..).mp h3
    obtain rfl := (mgf1_iff ..).mp h4
    refine ⟨salt, h2, ?_⟩
    rw [hT, ← octetBits_xor, ← octetBits_keepLow t (by omega)] at h5
    · obtain rfl := octetBits_inj h5
      have hx := xorBytes_length (List.replicate zeros 0 ++ 1 :: salt)
        (mgf1 h ((sha2 h).hash (List.replicate 8 0 ++ (sha2 h).hash m ++ salt)) (zeros + 1 + l))
        (by rw [mgf1_length]; simp only [List.length_append, List.length_replicate, List.length_cons]; omega)
      have hlen := h7
      simp only [List.length_append, keepLow_length, hx, hash_length, List.length_replicate, List.length_cons, List.length_nil] at hlen
      unfold pssEncode
      simp only
      rw [if_neg (by omega), hT, show (size + 7) / 8 - salt.length - (sha2 h).size - 2 = zeros by omega,
        show (size + 7) / 8 - (sha2 h).size - 1 = zeros + 1 + l by omega,
        List.append_assoc (List.replicate zeros 0) [1] salt, List.singleton_append]
    · intro h0
      have hx := congrArg List.length h0
      rw [xorBytes_length _ _ (by rw [mgf1_length]; simp only [List.length_append, List.length_replicate, List.length_cons]; omega)] at hx
      simp at hx
  · rintro ⟨salt, rfl, he⟩
    unfold pssEncode at he
    simp only at he
    split at he
    · cases he
    · rename_i hl
      simp only [Option.some.injEq] at he
      rw [hT] at he
      have hxl := xorBytes_length (List.replicate ((size + 7) / 8 - salt.length - (sha2 h).size - 2) 0 ++ 1 :: salt)
        (mgf1 h ((sha2 h).hash (List.replicate 8 0 ++ (sha2 h).hash m ++ salt)) ((size + 7) / 8 - (sha2 h).size - 1))
        (by rw [mgf1_length]; simp only [List.length_append, List.length_replicate, List.length_cons]; omega)
      rw [List.append_assoc (List.replicate _ 0) [1] salt, List.singleton_append] at he
      refine ⟨_, salt, _, _, _, (size + 7) / 8 - salt.length - (sha2 h).size - 2, digest_hash h m, rfl, digest_hash h _, (mgf1_iff ..).mpr rfl,
        ?_, he.symm, ?_⟩
      · rw [hT, show (size + 7) / 8 - salt.length - (sha2 h).size - 2 + 1 + salt.length = (size + 7) / 8 - (sha2 h).size - 1 by omega,
          ← octetBits_xor, octetBits_keepLow t (by omega)]
        intro h0
        rw [h0] at hxl
        simp at hxl
      · rw [← he]
        simp only [List.length_append, keepLow_length, hxl, hash_length, List.length_replicate, List.length_cons, List.length_nil]
        omega

theorem pssCheck_iff (size : Nat) (hsize : 0 < size) (h : Hash) (l : Nat) (m em : Bytes) :
    pssCheck size h l m em = true ↔ PssEncoded size h l m em := by
  rw [pssEncoded_iff]
  constructor
  · intro hc
    unfold pssCheck at hc
    simp only [Bool.and_eq_true, decide_eq_true_eq, beq_iff_eq] at hc
    obtain ⟨⟨⟨⟨⟨c1, c2⟩, c3⟩, c4⟩, c5⟩, c6⟩ := hc
    have hs := size_pos h
    generalize hE : (size + 7) / 8 = emLen at *
    generalize hM : em.take (emLen - (sha2 h).size - 1) = M at *
    generalize hH : (em.drop (emLen - (sha2 h).size - 1)).take (sha2 h).size = H at *
    generalize hK : mgf1 h H (emLen - (sha2 h).size - 1) = mask at *
    generalize hj : 8 - (8 * emLen - size) = j at *
    have hMl : M.length = emLen - (sha2 h).size - 1 := by rw [← hM, List.length_take]; omega
    have hKl : mask.length = emLen - (sha2 h).size - 1 := by rw [← hK, mgf1_length]
    have hmask := keepLow_mask j M mask (by rw [hMl, hKl])
    rw [c4] at hmask
    generalize hdb : keepLow j (xorBytes M mask) = db at *
    have hdl : db.length = emLen - (sha2 h).size - 1 := by rw [← hdb, keepLow_length, xorBytes_length _ _ (by rw [hMl, hKl]), hMl]
    refine ⟨db.drop (emLen - (sha2 h).size - l - 1), by rw [List.length_drop]; omega, ?_⟩
    have hsl : (db.drop (emLen - (sha2 h).size - l - 1)).length = l := by rw [List.length_drop]; omega
    have hsplit : List.replicate (emLen - l - (sha2 h).size - 2) 0 ++ [1] ++ db.drop (emLen - (sha2 h).size - l - 1) = db := by
      rw [← c5, List.take_append_drop]
    unfold pssEncode
    simp only [hE, hsl, hsplit, c6, hK, hj, hmask]
    rw [if_neg (by omega)]
    congr 1
    have e1 : em.drop (emLen - (sha2 h).size - 1) = H ++ [0xbc] := by
      rw [← hH, ← c3]
      conv_lhs => rw [← List.take_append_drop (sha2 h).size (em.drop (emLen - (sha2 h).size - 1))]
      rw [List.drop_drop]
      congr 3
      omega
    rw [List.append_assoc, ← e1, ← hM, List.take_append_drop]
  · rintro ⟨salt, rfl, he⟩
    exact (pssEncode_some hsize he).2.2

theorem pss_iff (n e : Nat) (h : Hash) (l : Nat) (m sig : Bytes) :
    pssHolds n e h l m sig = true ↔ ∃ em, PssEncoded (bits n - 1) h l m em ∧ RsaOpens n e sig em := by
  have hsz : ∀ {em}, PssEncoded (bits n - 1) h l m em → 0 < bits n - 1 ∧ em.length = (bits n - 1 + 7) / 8 := by
    rintro em ⟨digest, salt, hashed, masked, mask, zeros, h1, h2, h3, h4, h5, rfl, h7⟩
    refine ⟨?_, h7⟩
    simp only [List.length_append, List.length_cons, List.length_nil] at h7
    omega
  unfold pssHolds
  constructor
  · intro hh
    split at hh
    · rename_i v hv
      obtain ⟨h1, h2, h3⟩ := (rsaPublic_iff ..).mp hv
      simp only [Bool.and_eq_true, decide_eq_true_eq] at hh
      have hpos : 0 < bits n - 1 := by
        have := hh.2
        unfold pssCheck at this
        simp only [Bool.and_eq_true, decide_eq_true_eq] at this
        have := this.1.1.1.1.2
        omega
      refine ⟨_, (pssCheck_iff _ hpos ..).mp hh.2, h1, h2, ?_⟩
      rw [h3, value_number, octetsOf_eq, number_octets _ _ hh.1]
    · cases hh
  · rintro ⟨em, he, h1, h2, h3⟩
    obtain ⟨hpos, hl⟩ := hsz he
    rw [(rsaPublic_iff ..).mpr ⟨h1, h2, h3⟩]
    simp only [Bool.and_eq_true, decide_eq_true_eq]
    have hlt := number_lt em
    rw [value_number, ← hl]
    refine ⟨hlt, ?_⟩
    rw [octetsOf_eq, octets_number]
    exact (pssCheck_iff _ hpos ..).mpr he

end Psion.Real
