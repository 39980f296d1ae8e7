import Verif.Py.BitLemmas
import Verif.Py.IntB64Lemmas
import Verif.Spec.Encodings

/-!
Helper lemmas: the encodings of the model are those of the standards.
-/

namespace Psion

open Spec Real

/-! ## Base 64 -/

theorem bitsOf_six_split (a b : Nat) (k j : Nat) : bitsOf (k + j) (a * 2 ^ j + b % 2 ^ j) = bitsOf k a ++ bitsOf j b := by
  have hj : 0 < 2 ^ j := Nat.two_pow_pos j
  have hb : b % 2 ^ j < 2 ^ j := Nat.mod_lt _ hj
  rw [bitsOf_add, Nat.mul_comm, Nat.mul_add_div hj, Nat.div_eq_of_lt hb, Nat.add_zero, ← bitsOf_mod j (_ + _),
    Nat.mul_add_mod, Nat.mod_mod, bitsOf_mod]

/-- The groups of six bits, written directly. -/
def groupsOf : Bytes → List Nat
  | [] => []
  | [a] => [a.val / 4, a.val % 4 * 16]
  | [a, b] => [a.val / 4, a.val % 4 * 16 + b.val / 16, b.val % 16 * 4]
  | a :: b :: c :: rest => a.val / 4 :: (a.val % 4 * 16 + b.val / 16) :: (b.val % 16 * 4 + c.val / 64) :: c.val % 64 :: groupsOf rest

theorem bits_cut (n x y : Nat) (h : x / y < 2 ^ n) : bitsOf n (x / y) = bitsOf n (x / y % 2 ^ n) := by
  rw [Nat.mod_eq_of_lt h]

theorem octet_split (a : Byte) (k j : Nat) (h : k + j = 8) : bitsOf 8 a.val = bitsOf k (a.val / 2 ^ j) ++ bitsOf j a.val := by
  rw [← h, bitsOf_add]

theorem groupsOf_lt (m : Bytes) : ∀ g ∈ groupsOf m, g < 64 := by
  induction m using b2a.induct with
  | case1 => nofun
  | case2 a => have := a.isLt; simp only [groupsOf, List.mem_cons, List.not_mem_nil, or_false]; rintro g (rfl | rfl) <;> omega
  | case3 a b =>
    have := a.isLt; have := b.isLt
    simp only [groupsOf, List.mem_cons, List.not_mem_nil, or_false]; rintro g (rfl | rfl | rfl) <;> omega
  | case4 a b c rest ih =>
    have := a.isLt; have := b.isLt; have := c.isLt
    simp only [groupsOf, List.mem_cons]; rintro g (rfl | rfl | rfl | rfl | h)
    · omega
    · omega
    · omega
    · omega
    · exact ih g h

theorem bits_ab (a b : Nat) (hb : b < 256) : bitsOf 6 (a % 4 * 16 + b / 16) = bitsOf 2 a ++ bitsOf 4 (b / 16) := by
  have := bitsOf_six_split (a % 4) (b / 16) 2 4
  rw [Nat.mod_eq_of_lt (by omega : b / 16 < 2 ^ 4)] at this
  rw [show bitsOf 2 a = bitsOf 2 (a % 4) from (bitsOf_mod 2 a).symm]
  exact this

theorem bits_bc (b c : Nat) (hc : c < 256) : bitsOf 6 (b % 16 * 4 + c / 64) = bitsOf 4 b ++ bitsOf 2 (c / 64) := by
  have := bitsOf_six_split (b % 16) (c / 64) 4 2
  rw [Nat.mod_eq_of_lt (by omega : c / 64 < 2 ^ 2)] at this
  rw [show bitsOf 4 b = bitsOf 4 (b % 16) from (bitsOf_mod 4 b).symm]
  exact this

theorem bits_c (c : Nat) : bitsOf 6 (c % 64) = bitsOf 6 c := bitsOf_mod 6 c

theorem octetBits_cons (a : Byte) (m : Bytes) : octetBits (a :: m) = bitsOf 8 a.val ++ octetBits m := rfl

theorem groupsOf_bits (m : Bytes) : ∃ zeros < 6, (groupsOf m).flatMap (bitsOf 6) = octetBits m ++ List.replicate zeros false := by
  induction m using b2a.induct with
  | case1 => exact ⟨0, by decide, rfl⟩
  | case2 a =>
    refine ⟨4, by decide, ?_⟩
    have h := bits_ab a.val 0 (by decide)
    rw [Nat.zero_div, Nat.add_zero] at h
    simp only [groupsOf, List.flatMap_cons, List.flatMap_nil, List.append_nil, h, octetBits_cons, octet_split a 6 2 rfl]
    simp [octetBits, bitsOf, List.range_succ]
  | case3 a b =>
    refine ⟨2, by decide, ?_⟩
    have h := bits_bc b.val 0 (by decide)
    rw [Nat.zero_div, Nat.add_zero] at h
    simp only [groupsOf, List.flatMap_cons, List.flatMap_nil, List.append_nil, h, bits_ab _ _ b.isLt, octetBits_cons, octet_split a 6 2 rfl,
      octet_split b 4 4 rfl]
    simp [octetBits, bitsOf, List.range_succ]
  | case4 a b c rest ih =>
    obtain ⟨z, hz, h⟩ := ih
    refine ⟨z, hz, ?_⟩
    simp only [groupsOf, List.flatMap_cons, h, bits_ab _ _ b.isLt, bits_bc _ _ c.isLt, bits_c, octetBits_cons, octet_split a 6 2 rfl,
      octet_split b 4 4 rfl, octet_split c 2 6 rfl]
    simp

theorem groupsOf_ok (m : Bytes) : Groups m (groupsOf m) := ⟨groupsOf_lt m, groupsOf_bits m⟩

theorem flatMap_bits_length (g : List Nat) : (g.flatMap (bitsOf 6)).length = 6 * g.length := by
  induction g with
  | nil => rfl
  | cons a g ih => rw [List.flatMap_cons, List.length_append, ih, bitsOf_length, List.length_cons]; omega

theorem flatMap_bits_inj {g g' : List Nat} (h1 : ∀ x ∈ g, x < 64) (h2 : ∀ x ∈ g', x < 64)
    (h : g.flatMap (bitsOf 6) = g'.flatMap (bitsOf 6)) : g = g' := by
  induction g generalizing g' with
  | nil =>
    have := congrArg List.length h
    rw [flatMap_bits_length, flatMap_bits_length] at this
    cases g' with
    | nil => rfl
    | cons => simp at this
  | cons a g ih =>
    cases g' with
    | nil =>
      have := congrArg List.length h
      rw [flatMap_bits_length, flatMap_bits_length] at this
      simp at this
    | cons b g' =>
      rw [List.flatMap_cons, List.flatMap_cons] at h
      obtain ⟨h3, h4⟩ := List.append_inj h (by rw [bitsOf_length, bitsOf_length])
      have h5 := bitsOf_inj h3
      rw [Nat.mod_eq_of_lt (h1 a List.mem_cons_self), Nat.mod_eq_of_lt (h2 b List.mem_cons_self)] at h5
      rw [h5, ih (fun x hx => h1 x (List.mem_cons_of_mem _ hx)) (fun x hx => h2 x (List.mem_cons_of_mem _ hx)) h4]

theorem groups_iff {m : Bytes} {g : List Nat} : Groups m g ↔ g = groupsOf m := by
  refine ⟨fun ⟨h1, z, hz, h⟩ => ?_, fun h => h ▸ groupsOf_ok m⟩
  obtain ⟨h2, z', hz', h'⟩ := groupsOf_ok m
  apply flatMap_bits_inj h1 h2
  have l := congrArg List.length h
  have l' := congrArg List.length h'
  rw [flatMap_bits_length, List.length_append, List.length_replicate] at l l'
  rw [h, h', show z = z' by omega]

theorem mapM_some {α β : Type} (f : α → Option β) (g : α → β) : ∀ (l : List α), (∀ x ∈ l, f x = some (g x)) → l.mapM f = some (l.map g)
  | [], _ => rfl
  | a :: l, h => by
    rw [List.mapM_cons, h a List.mem_cons_self, mapM_some f g l (fun x hx => h x (List.mem_cons_of_mem _ hx))]
    rfl

theorem base64_char : ∀ g < 64, base64Alphabet[g]? = some (b64Char g) := by decide +kernel

theorem base64url_char : ∀ g < 64, base64urlAlphabet[g]? = some (b64uChar g) := by decide +kernel

theorem b64uRaw_groups (m : Bytes) : b64uRaw m = (groupsOf m).map b64uChar := by
  induction m using b2a.induct with
  | case1 => rfl
  | case2 a => rfl
  | case3 a b => rfl
  | case4 a b c rest ih => simp only [b64uRaw, groupsOf, List.map_cons, ih]

theorem base64url_iff {m t : Bytes} : Base64url m t ↔ b64urlEncode m = t := by
  have h := mapM_some (base64urlAlphabet[·]?) b64uChar (groupsOf m) (fun g hg => base64url_char g (groupsOf_lt m g hg))
  rw [b64urlEncode_eq, b64uRaw_groups]
  constructor
  · rintro ⟨g, hg, ht⟩
    rw [groups_iff.mp hg, h] at ht
    exact Option.some.inj ht
  · rintro rfl
    exact ⟨_, groupsOf_ok m, h⟩

/-- The characters of the padded text, and how many pad characters follow. -/
theorem b2a_groups (m : Bytes) : ∃ pad < 4, b2a m = (groupsOf m).map b64Char ++ List.replicate pad 61 ∧ (b2a m).length % 4 = 0 := by
  induction m using b2a.induct with
  | case1 => exact ⟨0, by decide, rfl, rfl⟩
  | case2 a => exact ⟨2, by decide, rfl, by simp [b2a]⟩
  | case3 a b => exact ⟨1, by decide, rfl, by simp [b2a]⟩
  | case4 a b c rest ih =>
    obtain ⟨pad, hp, h, hl⟩ := ih
    refine ⟨pad, hp, ?_, ?_⟩
    · simp only [b2a, groupsOf, List.map_cons, h, List.cons_append]
    · simp only [b2a, List.length_cons]; omega

theorem base64_iff {m t : Bytes} : Base64 m t ↔ b2a m = t := by
  have h := mapM_some (base64Alphabet[·]?) b64Char (groupsOf m) (fun g hg => base64_char g (groupsOf_lt m g hg))
  obtain ⟨pad, hp, hb, hl⟩ := b2a_groups m
  constructor
  · rintro ⟨g, chars, pad', hg, hc, rfl, hp', hl'⟩
    rw [groups_iff.mp hg, h] at hc
    cases hc
    rw [hb] at hl
    rw [List.length_append, List.length_replicate] at hl hl'
    rw [hb, show pad = pad' by omega]
  · rintro rfl
    exact ⟨_, _, pad, groupsOf_ok m, h, hb, hp, hl⟩

/-! ## Numbers -/

theorem ofBits_append (a b : List Bool) : ofBits (a ++ b) = ofBits a * 2 ^ b.length + ofBits b := by
  have key : ∀ (l : List Bool) (n : Nat), l.foldl (fun n b => 2 * n + b.toNat) n = n * 2 ^ l.length + ofBits l := by
    intro l
    unfold ofBits
    induction l with
    | nil => intro n; simp
    | cons x l ih =>
      intro n
      simp only [List.foldl_cons, List.length_cons]
      rw [ih, ih (2 * 0 + x.toNat), Nat.pow_succ, Nat.add_mul, Nat.mul_zero, Nat.zero_add, ← Nat.add_assoc, Nat.mul_comm (2 ^ _) 2,
        ← Nat.mul_assoc n 2, Nat.mul_comm 2 n]
  unfold ofBits
  rw [List.foldl_append, key]
  rfl

theorem octetsValue_eq (b : Bytes) : octetsValue b = ofBE b := by
  have key : ∀ (b : Bytes) (n : Nat), b.foldl (fun acc x => acc * 256 + x.val) n = n * 2 ^ (8 * b.length) + octetsValue b := by
    intro b
    induction b with
    | nil => intro n; simp [octetsValue, octetBits, ofBits]
    | cons x b ih =>
      intro n
      rw [List.foldl_cons, ih, octetsValue, octetsValue, octetBits_cons, ofBits_append, ofBits_bitsOf, octetBits_length,
        Nat.mod_eq_of_lt (by have := x.isLt; omega), List.length_cons,
        show 8 * (b.length + 1) = 8 + 8 * b.length by omega, Nat.pow_add, Nat.add_mul, Nat.add_assoc, Nat.mul_assoc]
  unfold ofBE
  rw [key b 0]
  omega

theorem toBE_ofBE (b : Bytes) : toBE b.length (ofBE b) = b := by
  have key : ∀ (r : Bytes), toBE r.reverse.length (ofBE r.reverse) = r.reverse := by
    intro r
    induction r with
    | nil => rfl
    | cons x r ih =>
      rw [List.reverse_cons, ofBE_snoc, List.length_append, List.length_singleton, toBE]
      have hx := x.isLt
      rw [show (ofBE r.reverse * 256 + x.val) / 256 = ofBE r.reverse by omega, ih]
      congr 2
      apply Fin.ext
      rw [byte_val]
      omega
  simpa using key b.reverse

theorem ofBE_cons (x : Byte) (b : Bytes) : ofBE (x :: b) = x.val * 2 ^ (8 * b.length) + ofBE b := by
  rw [← octetsValue_eq, ← octetsValue_eq, octetsValue, octetBits_cons, ofBits_append, ofBits_bitsOf, octetBits_length,
    Nat.mod_eq_of_lt (by have := x.isLt; omega)]
  rfl

theorem ofBE_lt (b : Bytes) : ofBE b < 2 ^ (8 * b.length) := by
  induction b with
  | nil => decide
  | cons x b ih =>
    rw [ofBE_cons, List.length_cons, Nat.mul_succ, Nat.pow_add, Nat.mul_comm (2 ^ (8 * b.length)), show 2 ^ 8 = 255 + 1 from rfl,
      Nat.add_mul]
    have := Nat.mul_le_mul_right (2 ^ (8 * b.length)) (show x.val ≤ 255 by have := x.isLt; omega)
    omega

theorem two_pow_le_bitLength {n : Nat} (h : 0 < n) : 2 ^ (bitLength n - 1) ≤ n := by
  unfold bitLength
  rw [if_neg (by omega), Nat.add_sub_cancel]
  exact Nat.log2_self_le (by omega)

/-- The octets of a number without leading zeros. -/
theorem minimal_iff {n : Nat} (hn : 0 < n) (m : Bytes) :
    (octetsValue m = n ∧ m.head? ≠ some 0) ↔ m = toBE ((bitLength n + 7) / 8) n := by
  have hb := bitLength_pos hn
  have h1 := two_pow_le_bitLength hn
  have h2 := lt_two_pow_bitLength n
  rw [octetsValue_eq]
  constructor
  · rintro ⟨h, hh⟩
    cases m with
    | nil => simp [ofBE] at h; omega
    | cons x b =>
      have hl := ofBE_lt (x :: b)
      have hx : 2 ^ (8 * b.length) ≤ n := by
        rw [← h, ofBE_cons]
        have : x.val ≠ 0 := fun hx => hh (by rw [List.head?_cons, Fin.ext (b := 0) hx])
        have := Nat.mul_le_mul_right (2 ^ (8 * b.length)) (show 1 ≤ x.val by omega)
        omega
      rw [h, List.length_cons] at hl
      have h3 := (Nat.pow_lt_pow_iff_right (by decide : 1 < 2)).mp (Nat.lt_of_le_of_lt hx h2)
      have h4 := (Nat.pow_lt_pow_iff_right (by decide : 1 < 2)).mp (Nat.lt_of_le_of_lt h1 hl)
      rw [show (bitLength n + 7) / 8 = (x :: b).length by rw [List.length_cons]; omega, ← h, toBE_ofBE]
  · intro h
    have hv : ofBE m = n := by rw [h, ofBE_toBE _ _ (lt_256_pow n)]
    refine ⟨hv, fun hh => ?_⟩
    have hl : m.length = (bitLength n + 7) / 8 := by rw [h, toBE_length]
    cases m with
    | nil => cases hh
    | cons x b =>
      cases Option.some.inj hh
      rw [ofBE_cons, show ((0 : Byte) : Nat) = 0 from rfl, Nat.zero_mul, Nat.zero_add] at hv
      have := ofBE_lt b
      rw [hv] at this
      have h4 := (Nat.pow_lt_pow_iff_right (by decide : 1 < 2)).mp (Nat.lt_of_le_of_lt h1 this)
      rw [List.length_cons] at hl
      omega

/-! ## UTF-8 -/

theorem octet_bits (k j p v : Nat) (hk : k + j = 8) (hp : p < 2 ^ k) (hv : v < 2 ^ j) :
    octetBits [byte (p * 2 ^ j + v)] = bitsOf k p ++ bitsOf j v := by
  have h := bitsOf_six_split p v k j
  rw [Nat.mod_eq_of_lt hv] at h
  have hlt : p * 2 ^ j + v < 256 := by
    have h1 : (p + 1) * 2 ^ j ≤ 2 ^ k * 2 ^ j := Nat.mul_le_mul_right _ hp
    rw [← Nat.pow_add, hk, Nat.add_mul] at h1
    omega
  rw [octetBits_cons, byte_of_lt hlt, ← hk, h]
  simp [octetBits]

theorem utf8Char_encode {c : Nat} {b : Bytes} (h : utf8EncodeChar c = .ok b) : Utf8Char c b := by
  have e0 : ∀ v < 128, octetBits [byte v] = [false] ++ bitsOf 7 v := fun v hv => by
    have := octet_bits 1 7 0 v rfl (by decide) hv
    rw [Nat.zero_mul, Nat.zero_add] at this
    exact this
  have e1 : ∀ v < 64, octetBits [byte (0x80 + v)] = [true, false] ++ bitsOf 6 v := fun v hv => octet_bits 2 6 2 v rfl (by decide) hv
  have e2 : ∀ v < 32, octetBits [byte (0xC0 + v)] = [true, true, false] ++ bitsOf 5 v := fun v hv => octet_bits 3 5 6 v rfl (by decide) hv
  have e3 : ∀ v < 16, octetBits [byte (0xE0 + v)] = [true, true, true, false] ++ bitsOf 4 v := fun v hv =>
    octet_bits 4 4 14 v rfl (by decide) hv
  have e4 : ∀ v < 8, octetBits [byte (0xF0 + v)] = [true, true, true, true, false] ++ bitsOf 3 v := fun v hv =>
    octet_bits 5 3 30 v rfl (by decide) hv
  have m6 : ∀ v, bitsOf 6 (v % 64) = bitsOf 6 v := fun v => bitsOf_mod 6 v
  have cons : ∀ (x : Byte) (y : Byte) (l : Bytes), octetBits (x :: y :: l) = octetBits [x] ++ octetBits (y :: l) := fun x y l => by
    rw [← octetBits_append]; rfl
  unfold utf8EncodeChar at h
  split at h
  · cases h
    exact .one (by omega) (e0 _ (by omega))
  split at h
  · cases h
    refine .two (by omega) (by omega) ?_
    rw [cons, e2 _ (by omega), e1 _ (by omega), m6]
    simp
  split at h
  · cases h
  rename_i h1 h2 hs
  have hs' : c < 0xD800 ∨ (0xE000 ≤ c ∧ c < 0x110000) := by
    rw [← scalar_iff]; simpa using hs
  split at h
  · cases h
    refine .three (by omega) (by omega) (by omega) ?_
    rw [cons, cons, e3 _ (by omega), e1 _ (by omega), e1 _ (by omega), m6, m6]
    simp
  · cases h
    refine .four (by omega) (by omega) ?_
    rw [cons, cons, cons, e4 _ (by omega), e1 _ (by omega), e1 _ (by omega), e1 _ (by omega), m6, m6, m6]
    simp

theorem utf8Char_scalar {c : Nat} {b : Bytes} (h : Utf8Char c b) : Psion.scalar c = true := by
  rw [scalar_iff]
  cases h <;> omega

theorem utf8Char_one {c : Nat} {b b' : Bytes} (h : Utf8Char c b) (h' : Utf8Char c b') : b = b' := by
  apply octetBits_inj
  cases h <;> cases h' <;> first | omega | simp_all

theorem utf8Octet_iff {c : Nat} {b : Bytes} : Utf8Char c b ↔ utf8EncodeChar c = .ok b := by
  refine ⟨fun h => ?_, utf8Char_encode⟩
  obtain ⟨b', hb⟩ := utf8EncodeChar_ok (utf8Char_scalar h)
  rw [hb, utf8Char_one h (utf8Char_encode hb)]

theorem utf8Octets_iff {s : PyStr} {b : Bytes} : Utf8Octets s b ↔ utf8Encode s = .ok b := by
  constructor
  · intro h
    induction h with
    | nil => rfl
    | cons hc _ ih => rw [utf8Encode, utf8Octet_iff.mp hc, ih]
  · intro h
    induction s generalizing b with
    | nil => cases h; exact .nil
    | cons c s ih =>
      simp only [utf8Encode] at h
      split at h
      · cases h
      · split at h
        · cases h
        · rename_i _ bc hc _ r hr
          cases h
          exact .cons (utf8Octet_iff.mpr hc) (ih hr)

end Psion
