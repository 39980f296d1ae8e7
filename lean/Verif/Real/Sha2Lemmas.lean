import Verif.Real.PssLemmas
import Verif.Py.BitLemmas
import Verif.Spec.Fips180

/-!
# The hash functions of `Verif/Real/Sha2.lean` are those of FIPS 180-4
-/

namespace Psion.Real

open Psion Spec

/-! ## Bits -/

theorem octetBits_octets (len n : Nat) : octetBits (octetsOf len n) = bitsOf (8 * len) n := by
  induction len generalizing n with
  | zero => rfl
  | succ len ih =>
    rw [octetsOf, force_eq, octetBits_append, ih, Nat.mul_succ, bitsOf_add]
    congr 1
    simp only [octetBits, List.flatMap_cons, List.flatMap_nil, List.append_nil]
    exact bitsOf_mod 8 n

theorem number_bits (m : Bytes) : number m = ofBits (octetBits m) := by
  have key : ∀ (m : Bytes) (len : Nat), m.length = len → m = octetsOf len (number m) := by
    intro m len h
    subst h
    induction m using List.reverseRecOn with
    | nil => rfl
    | append_singleton m x ih =>
      rw [number_snoc, List.length_append, List.length_singleton, octetsOf, force_eq]
      have hx := x.isLt
      rw [show (256 * number m + x.val) / 256 = number m by omega, ← ih]
      congr 2
      apply Fin.ext
      change x.val = (256 * number m + x.val) % 256
      omega
  conv_rhs => rw [key m _ rfl, octetBits_octets, ofBits_bitsOf]
  rw [Nat.mod_eq_of_lt]
  have := number_lt m
  rwa [Nat.pow_mul]

/-! ## Pieces -/

theorem chunks_eq {α : Type} (k : Nat) (hk : 0 < k) (n fuel : Nat) (l : List α) (hl : l.length = k * n) (hf : n ≤ fuel) :
    chunks k fuel l = (List.range n).map (fun i => (l.drop (k * i)).take k) := by
  induction fuel generalizing l n with
  | zero =>
    obtain rfl : n = 0 := by omega
    rfl
  | succ fuel ih =>
    cases n with
    | zero =>
      obtain rfl : l = [] := List.length_eq_zero_iff.mp (by simpa using hl)
      rfl
    | succ n =>
      have hne : l.isEmpty = false := by
        cases l with
        | nil => rw [Nat.mul_succ] at hl; simp at hl; omega
        | cons => rfl
      rw [chunks, hne, List.range_succ_eq_map, List.map_cons, List.map_map]
      simp only [Bool.false_eq_true, if_false, Nat.mul_zero, List.drop_zero]
      congr 1
      rw [ih n (l.drop k) (by rw [List.length_drop, hl, Nat.mul_succ]; omega) (by omega)]
      apply List.map_congr_left
      intro i _
      simp only [Function.comp, List.drop_drop, Nat.succ_eq_add_one, Nat.mul_add, Nat.mul_one]
      rw [Nat.add_comm]

/-! ## Rounds -/

/-- The words of a hash value as numbers. -/
def nats {w : Nat} (s : ShaVars w) : List Nat :=
  [s.a.toNat, s.b.toNat, s.c.toNat, s.d.toNat, s.e.toNat, s.f.toNat, s.g.toNat, s.h.toNat]

/-- The parameters are those of the standard. -/
structure Matches (p : Sha2) (f : ShaFamily) : Prop where
  w : p.w = f.w
  big0 : ∀ x : BitVec f.w, p.sum p.big0 x.toNat = (f.big0 x).toNat
  big1 : ∀ x : BitVec f.w, p.sum p.big1 x.toNat = (f.big1 x).toNat
  small0 : ∀ x : BitVec f.w, p.sigma p.small0 x.toNat = (f.small0 x).toNat
  small1 : ∀ x : BitVec f.w, p.sigma p.small1 x.toNat = (f.small1 x).toNat
  rounds : p.rounds = (List.range f.rounds).map (fun t => (shaConst f t).toNat)

theorem ch_eq {p : Sha2} {f : ShaFamily} (h : p.w = f.w) (x y z : BitVec f.w) :
    p.ch x.toNat y.toNat z.toNat = (shaCh x y z).toNat := by
  simp only [Sha2.ch, shaCh, h, BitVec.toNat_xor, BitVec.toNat_and, BitVec.toNat_not]

theorem maj_eq {w : Nat} (x y z : BitVec w) : maj x.toNat y.toNat z.toNat = (shaMaj x y z).toNat := by
  simp only [maj, shaMaj, BitVec.toNat_xor, BitVec.toNat_and]

theorem schedule_step (f : ShaFamily) (block : Nat → BitVec f.w) (t : Nat) :
    shaSchedule f block (t + 16) = f.small1 (shaSchedule f block (t + 14)) + shaSchedule f block (t + 9) +
      f.small0 (shaSchedule f block (t + 1)) + shaSchedule f block t := by
  rw [shaSchedule, if_neg (by omega)]
  rfl

theorem range16 {α : Type} (g : Nat → α) : (List.range 16).map g = [g 0, g 1, g 2, g 3, g 4, g 5, g 6, g 7, g 8, g 9, g 10, g 11, g 12,
    g 13, g 14, g 15] := rfl

theorem run_eq {p : Sha2} {f : ShaFamily} (M : Matches p f) (block : Nat → BitVec f.w) (s : ShaVars f.w) (n t : Nat) :
    p.run ((List.range n).map (fun i => (shaConst f (t + i)).toNat)) ((List.range 16).map (fun j => (shaSchedule f block (t + j)).toNat))
      (shaRounds f block s t).a.toNat (shaRounds f block s t).b.toNat (shaRounds f block s t).c.toNat (shaRounds f block s t).d.toNat
      (shaRounds f block s t).e.toNat (shaRounds f block s t).f.toNat (shaRounds f block s t).g.toNat (shaRounds f block s t).h.toNat =
    nats (shaRounds f block s (t + n)) := by
  induction n generalizing t with
  | zero => rfl
  | succ n ih =>
    have ih := ih (t + 1)
    rw [range16, Nat.add_right_comm t 1 n] at ih
    rw [List.range_succ_eq_map, List.map_cons, List.map_map, range16, Sha2.run]
    simp only [force_eq, M.w, M.big0, M.big1, ch_eq M.w, maj_eq]
    rw [← Nat.add_assoc, ← ih]
    have hk : List.map ((fun i => (shaConst f (t + i)).toNat) ∘ Nat.succ) (List.range n) =
        List.map (fun i => (shaConst f (t + 1 + i)).toNat) (List.range n) := by
      apply List.map_congr_left
      intro i _
      simp only [Function.comp]
      congr 2
      omega
    rw [hk]
    have hw := congrArg BitVec.toNat (schedule_step f block t)
    simp only [BitVec.toNat_add, Nat.mod_add_mod] at hw
    simp only [shaRounds, shaRound, BitVec.toNat_add, Nat.mod_add_mod, Nat.add_mod_mod, List.cons_append, List.nil_append,
      List.getD_cons_succ, List.getD_cons_zero, Nat.add_zero, ← Nat.add_assoc, Nat.add_right_comm t 1, M.small0, M.small1, ← hw]

theorem block_eq {p : Sha2} {f : ShaFamily} (M : Matches p f) (block : Nat → BitVec f.w) (s : ShaVars f.w) :
    p.block (nats s) ((List.range 16).map (fun j => (block j).toNat)) = nats (shaBlock f s block) := by
  have h := run_eq M block s f.rounds 0
  simp only [Nat.zero_add] at h
  rw [← M.rounds] at h
  have hb : (List.range 16).map (fun j => (shaSchedule f block j).toNat) = (List.range 16).map (fun j => (block j).toNat) := by
    apply List.map_congr_left
    intro j hj
    rw [List.mem_range] at hj
    rw [shaSchedule, if_pos hj]
  rw [hb] at h
  change List.zipWith _ _ (p.run p.rounds _ s.a.toNat s.b.toNat s.c.toNat s.d.toNat s.e.toNat s.f.toNat s.g.toNat s.h.toNat) = _
  rw [show p.run p.rounds ((List.range 16).map (fun j => (block j).toNat)) s.a.toNat s.b.toNat s.c.toNat s.d.toNat s.e.toNat s.f.toNat
    s.g.toNat s.h.toNat = _ from h]
  simp only [nats, shaBlock, List.zipWith_cons_cons, List.zipWith_nil_right, force_eq, id, M.w, BitVec.toNat_add]
  simp only [Nat.add_comm]

/-! ## Blocks -/

theorem range_slice {α : Type} (g : Nat → α) (n i : Nat) (h : i < n) :
    (((List.range (16 * n)).map g).drop (16 * i)).take 16 = (List.range 16).map (fun j => g (16 * i + j)) := by
  apply List.ext_getElem
  · simp only [List.length_take, List.length_drop, List.length_map, List.length_range]
    omega
  · intro j h1 h2
    simp [List.getElem_take, List.getElem_drop]

theorem words_eq (b : Nat) (hb : 0 < b) (m : Bytes) (n fuel : Nat) (hm : m.length = b * n) (hf : n ≤ fuel) :
    (chunks b fuel m).map number = (List.range n).map (fun i => (shaWord (8 * b) (octetBits m) i).toNat) := by
  rw [chunks_eq b hb n fuel m hm hf, List.map_map]
  apply List.map_congr_left
  intro i _
  simp only [Function.comp, shaWord, number_bits]
  rw [octetBits_take, octetBits_drop, BitVec.toNat_ofNat, Nat.mod_eq_of_lt, Nat.mul_assoc]
  rw [Nat.mul_assoc 8 b i, ← octetBits_drop, ← octetBits_take, ← number_bits]
  refine Nat.lt_of_lt_of_le (number_lt _) ?_
  rw [Nat.pow_mul]
  exact Nat.pow_le_pow_right (by decide) (List.length_take_le _ _)

/-- All parameters of a hash function are those of the standard. -/
structure Agrees (h : Hash) : Prop where
  fam : Matches (sha2 h) (shaFamily h)
  init : (sha2 h).init = nats (shaValue h [] 0)
  size : 8 * (sha2 h).size = shaSize h

theorem value_eq {h : Hash} (A : Agrees h) (m : List Bool) (n : Nat) :
    ((List.range n).map (fun i => (List.range 16).map (fun j => (shaWord (shaFamily h).w m (16 * i + j)).toNat))).foldl
      (sha2 h).block (sha2 h).init = nats (shaValue h m n) := by
  induction n with
  | zero => exact A.init
  | succ n ih =>
    rw [List.range_succ (n := n), List.map_append, List.foldl_append, ih]
    exact block_eq A.fam _ _

theorem hash_blocks {h : Hash} (A : Agrees h) (m : Bytes) (b n : Nat) (hb : (sha2 h).w = 8 * b) (hb0 : 0 < b)
    (hm : ((sha2 h).pad m).length = b * (16 * n)) :
    octetBits ((sha2 h).hash m) = (shaBits (shaValue h (octetBits ((sha2 h).pad m)) n)).take (shaSize h) := by
  have hw : (shaFamily h).w = 8 * b := A.fam.w.symm.trans hb
  have hb' : (sha2 h).w / 8 = b := by omega
  have hle : 16 * n ≤ ((sha2 h).pad m).length := by rw [hm]; exact Nat.le_mul_of_pos_left _ hb0
  unfold Sha2.hash
  simp only [hb']
  rw [words_eq b hb0 _ _ _ hm hle, ← hw]
  rw [chunks_eq 16 (by decide) n _ _ (by simp) (by simp; omega)]
  rw [List.map_congr_left (g := fun i => (List.range 16).map (fun j =>
    (shaWord (shaFamily h).w (octetBits ((sha2 h).pad m)) (16 * i + j)).toNat)) (fun i hi => range_slice _ _ _ (List.mem_range.mp hi))]
  rw [value_eq A, octetBits_take, A.size]
  congr 1
  simp only [nats, List.flatMap_cons, List.flatMap_nil, List.append_nil, octetBits_append, octetBits_octets, shaBits, hw,
    List.append_assoc]

/-! ## Constants -/

theorem floor_root {k w p n : Nat} (hk : k ≠ 0) (h1 : n ^ k ≤ p * (2 ^ w) ^ k) (h2 : p * (2 ^ w) ^ k < (n + 1) ^ k) :
    ⌊(p : ℝ) ^ ((1 : ℝ) / k) * 2 ^ w⌋₊ = n := by
  have h0 : (0 : ℝ) ≤ (p : ℝ) ^ ((1 : ℝ) / k) * 2 ^ w := by positivity
  have hx : ((p : ℝ) ^ ((1 : ℝ) / k) * 2 ^ w) ^ k = ((p * (2 ^ w) ^ k : Nat) : ℝ) := by
    rw [mul_pow, one_div, Real.rpow_inv_natCast_pow (Nat.cast_nonneg p) hk]
    simp only [Nat.cast_mul, Nat.cast_pow, Nat.cast_ofNat]
  rw [Nat.floor_eq_iff h0]
  constructor
  · rw [← pow_le_pow_iff_left₀ (Nat.cast_nonneg n) h0 hk, hx, ← Nat.cast_pow]
    exact Nat.cast_le.mpr h1
  · rw [← pow_lt_pow_iff_left₀ h0 (by positivity) hk, hx, ← Nat.cast_succ, ← Nat.cast_pow]
    exact Nat.cast_lt.mpr h2

/-- Checks a constant: some integral part, at most 7, makes it the root. -/
def rootOk (w k p x : Nat) : Bool :=
  decide (x < 2 ^ w) && (List.range 8).any (fun i => decide ((i * 2 ^ w + x) ^ k ≤ p * (2 ^ w) ^ k ∧ p * (2 ^ w) ^ k < (i * 2 ^ w + x + 1) ^ k))

theorem rootBits_of {w k p x : Nat} (hk : k ≠ 0) (h : rootOk w k p x = true) : (rootBits w k p).toNat = x := by
  unfold rootOk at h
  rw [Bool.and_eq_true, decide_eq_true_eq, List.any_eq_true] at h
  obtain ⟨hx, i, -, hi⟩ := h
  obtain ⟨h1, h2⟩ := of_decide_eq_true hi
  rw [rootBits, floor_root hk h1 h2, BitVec.toNat_ofNat, Nat.mul_comm, Nat.mul_add_mod, Nat.mod_eq_of_lt hx]

/-- A test for prime numbers that the kernel can run. -/
def primeTest (n : Nat) : Bool := decide (2 ≤ n) && (List.range n).all (fun m => decide (m < 2) || n % m != 0)

theorem primeTest_iff : Nat.Prime = fun n => primeTest n = true := by
  funext n
  rw [eq_iff_iff, Nat.prime_def_lt', primeTest, Bool.and_eq_true, decide_eq_true_eq, List.all_eq_true]
  refine and_congr_right fun _ => ⟨fun h m hm => ?_, fun h m h2 hn hd => ?_⟩
  · rw [List.mem_range] at hm
    by_cases h2 : m < 2
    · simp [h2]
    · have := h m (by omega) hm
      rw [Nat.dvd_iff_mod_eq_zero] at this
      simp [this]
  · have := h m (List.mem_range.mpr hn)
    rw [Nat.mod_eq_zero_of_dvd hd] at this
    simp at this
    omega

theorem primeAt_of {p t : Nat} (h : primeTest p = true ∧ Nat.count (fun n => primeTest n = true) p = t) : primeAt t = p := by
  rw [primeAt, primeTest_iff, ← h.2]
  exact Nat.nth_count h.1

/-- The first eighty prime numbers. -/
def primes80 : List Nat :=
  [2, 3, 5, 7, 11, 13, 17, 19, 23, 29, 31, 37, 41, 43, 47, 53, 59, 61, 67, 71,
   73, 79, 83, 89, 97, 101, 103, 107, 109, 113, 127, 131, 137, 139, 149, 151, 157, 163, 167, 173,
   179, 181, 191, 193, 197, 199, 211, 223, 227, 229, 233, 239, 241, 251, 257, 263, 269, 271, 277, 281,
   283, 293, 307, 311, 313, 317, 331, 337, 347, 349, 353, 359, 367, 373, 379, 383, 389, 397, 401, 409]

theorem primeAt_list : ∀ t < 80, primeAt t = primes80.getD t 0 := by
  have h : ∀ t < 80, primeTest (primes80.getD t 0) = true ∧ Nat.count (fun n => primeTest n = true) (primes80.getD t 0) = t := by
    decide +kernel
  exact fun t ht => primeAt_of (h t ht)

/-- The list has the first bits of the roots of the prime numbers from number `first` on. -/
def rootsOk (w k first count : Nat) (l : List Nat) : Bool :=
  decide (l.length = count) && (List.range count).all (fun t => rootOk w k (primes80.getD (first + t) 0) (l.getD t 0))

theorem roots_of {w k first count : Nat} {l : List Nat} (hk : k ≠ 0) (hc : first + count ≤ 80) (h : rootsOk w k first count l = true) :
    l = (List.range count).map (fun t => (rootBits w k (primeAt (first + t))).toNat) := by
  rw [rootsOk, Bool.and_eq_true, decide_eq_true_eq, List.all_eq_true] at h
  obtain ⟨hl, h⟩ := h
  apply List.ext_getElem
  · simp [hl]
  · intro t h1 h2
    have ht : t < count := hl ▸ h1
    have := rootBits_of hk (h t (List.mem_range.mpr ht))
    rw [List.getElem_map, List.getElem_range, primeAt_list _ (by omega), this, List.getD_eq_getElem _ _ h1]

theorem matches256 : Matches sha256 shaFamily32 := by
  refine ⟨rfl, ?_, ?_, ?_, ?_, ?_⟩
  · intro x; simp only [Sha2.sum, Sha2.rotr, shaFamily32, BitVec.toNat_xor]; rfl
  · intro x; simp only [Sha2.sum, Sha2.rotr, shaFamily32, BitVec.toNat_xor]; rfl
  · intro x
    simp only [Sha2.sigma, Sha2.rotr, shaFamily32, BitVec.toNat_xor]; rfl
  · intro x
    simp only [Sha2.sigma, Sha2.rotr, shaFamily32, BitVec.toNat_xor]; rfl
  · have := roots_of (w := 32) (k := 3) (first := 0) (count := 64) (l := sha256.rounds) (by decide) (by decide) (by decide +kernel)
    simp only [Nat.zero_add] at this
    exact this

theorem matches512 : Matches sha512 shaFamily64 := by
  refine ⟨rfl, ?_, ?_, ?_, ?_, ?_⟩
  · intro x; simp only [Sha2.sum, Sha2.rotr, shaFamily64, BitVec.toNat_xor]; rfl
  · intro x; simp only [Sha2.sum, Sha2.rotr, shaFamily64, BitVec.toNat_xor]; rfl
  · intro x
    simp only [Sha2.sigma, Sha2.rotr, shaFamily64, BitVec.toNat_xor]; rfl
  · intro x
    simp only [Sha2.sigma, Sha2.rotr, shaFamily64, BitVec.toNat_xor]; rfl
  · have := roots_of (w := 64) (k := 3) (first := 0) (count := 80) (l := sha512.rounds) (by decide) (by decide) (by decide +kernel)
    simp only [Nat.zero_add] at this
    exact this

theorem matches384 : Matches sha384 shaFamily64 :=
  ⟨rfl, matches512.big0, matches512.big1, matches512.small0, matches512.small1, matches512.rounds⟩

theorem agrees (h : Hash) : Agrees h := by
  cases h with
  | sha256 =>
    refine ⟨matches256, ?_, rfl⟩
    rw [roots_of (w := 32) (k := 2) (first := 0) (count := 8) (l := (sha2 .sha256).init) (by decide) (by decide) (by decide +kernel)]
    rfl
  | sha384 =>
    refine ⟨matches384, ?_, rfl⟩
    rw [roots_of (w := 64) (k := 2) (first := 8) (count := 8) (l := (sha2 .sha384).init) (by decide) (by decide) (by decide +kernel)]
    rfl
  | sha512 =>
    refine ⟨matches512, ?_, rfl⟩
    rw [roots_of (w := 64) (k := 2) (first := 0) (count := 8) (l := (sha2 .sha512).init) (by decide) (by decide) (by decide +kernel)]
    rfl

/-! ## Padding -/

theorem octetBits_zeros (z : Nat) : octetBits (List.replicate z 0) = List.replicate (8 * z) false := by
  induction z with
  | zero => rfl
  | succ z ih =>
    rw [List.replicate_succ', octetBits_append, ih, Nat.mul_succ, List.replicate_add]
    rfl

theorem pad_bits (p : Sha2) (m : Bytes) (hp : p.w = 32 ∨ p.w = 64) (z : Nat)
    (hz : z = (2 * p.w - (m.length + 1 + p.w / 4) % (2 * p.w)) % (2 * p.w)) :
    octetBits (p.pad m) = octetBits m ++ true :: List.replicate (7 + 8 * z) false ++ bitsOf (2 * p.w) (octetBits m).length := by
  have h8 : 8 * (p.w / 4) = 2 * p.w := by omega
  rw [Sha2.pad, ← hz, octetBits_append, octetBits_append, octetBits_append, octetBits_zeros, octetBits_octets, octetBits_length, h8,
    List.append_assoc, List.append_assoc, List.append_assoc, List.replicate_add]
  rfl

theorem padded_iff (p : Sha2) (m : Bytes) (hp : p.w = 32 ∨ p.w = 64) (l : List Bool) :
    ShaPadded p.w (octetBits m) l ↔ l = octetBits (p.pad m) := by
  rw [pad_bits p m hp _ rfl]
  generalize hz : (2 * p.w - (m.length + 1 + p.w / 4) % (2 * p.w)) % (2 * p.w) = z
  have hk : ((octetBits m).length + 1 + (7 + 8 * z)) % (16 * p.w) = 14 * p.w ∧ 7 + 8 * z < 16 * p.w := by
    rw [octetBits_length]
    rcases hp with h | h <;> rw [h] at hz ⊢ <;> omega
  constructor
  · rintro ⟨k, h1, h2, rfl⟩
    have : k = 7 + 8 * z := by
      rcases hp with h | h <;> rw [h] at h1 h2 hk <;> omega
    rw [this]
  · intro h
    exact ⟨7 + 8 * z, hk.1, hk.2, h⟩

theorem pad_length (p : Sha2) (m : Bytes) (hp : p.w = 32 ∨ p.w = 64) :
    (p.pad m).length = p.w / 8 * (16 * ((octetBits (p.pad m)).length / (16 * p.w))) := by
  have h : (p.pad m).length = m.length + 1 + (2 * p.w - (m.length + 1 + p.w / 4) % (2 * p.w)) % (2 * p.w) + p.w / 4 := by
    simp [Sha2.pad, octetsOf_length]
    omega
  rw [octetBits_length, h]
  rcases hp with h | h <;> rw [h] <;> omega

theorem word_size (h : Hash) : (sha2 h).w = 32 ∨ (sha2 h).w = 64 := by
  cases h
  · exact Or.inl rfl
  · exact Or.inr rfl
  · exact Or.inr rfl

theorem digest_iff (h : Hash) (m d : Bytes) : Digest h m d ↔ (sha2 h).hash m = d := by
  have A := agrees h
  have hp := word_size h
  have key := hash_blocks A m ((sha2 h).w / 8) _ (by omega) (by omega) (pad_length (sha2 h) m hp)
  rw [A.fam.w] at key
  constructor
  · rintro ⟨p, h1, h2⟩
    rw [← A.fam.w, padded_iff _ _ hp] at h1
    subst h1
    exact octetBits_inj (key.trans h2.symm)
  · rintro rfl
    exact ⟨_, A.fam.w ▸ (padded_iff _ _ hp _).mpr rfl, key⟩

theorem hmac_iff (h : Hash) (key m mac : Bytes) : Hmac h key m mac ↔ hmac h key m = mac := by
  have hb : shaBlockSize h = 2 * (sha2 h).w := by cases h <;> rfl
  have hs : (sha2 h).size ≤ 2 * (sha2 h).w := by cases h <;> decide
  simp only [Hmac, digest_iff, hb, hmac]
  constructor
  · rintro ⟨short, k, inner, h1, h2, h3, h4, h5⟩
    have : (if key.length ≤ 2 * (sha2 h).w then key else (sha2 h).hash key) = short := by
      split
      · rcases h1 with h1 | h1
        · exact h1.2.symm
        · omega
      · rcases h1 with h1 | h1
        · omega
        · exact h1.2
    rw [this, ← h3, h4, h5]
  · rintro rfl
    refine ⟨if key.length ≤ 2 * (sha2 h).w then key else (sha2 h).hash key, _, _, ?_, ?_, rfl, rfl, rfl⟩
    · split
      · exact Or.inl ⟨by assumption, rfl⟩
      · exact Or.inr ⟨by omega, rfl⟩
    · rw [List.length_append, List.length_replicate]
      split
      · omega
      · rw [hash_length]
        omega

end Psion.Real
