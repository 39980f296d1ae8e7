import Verif.Real.RsaSigLemmas
import Verif.Real.CryptoLemmas
import Verif.Py.EncodingLemmas
import Verif.Spec.Asn1

/-!
# The reader and the writer of `Verif/Real/Pem.lean` follow the standards
-/

namespace Psion.Real

open Psion Spec

/-! ## Reading DER -/

theorem readDer_der {tag : Byte} {c text : Bytes} (h : Der tag c text) (rest : Bytes) : readDer (text ++ rest) = some (tag.val, c, rest) := by
  have cut : ∀ t, readDer.cut t c.length (c ++ rest) = some (t, c, rest) := by
    intro t
    unfold readDer.cut
    rw [if_neg (by simp), List.take_left', List.drop_left'] <;> rfl
  obtain ⟨l, ⟨h1, rfl⟩ | ⟨h1, o, h2, h3, h4, rfl⟩, rfl⟩ := h
  · show readDer (tag :: byte c.length :: (c ++ rest)) = _
    unfold readDer
    simp only
    rw [byte_val _ (by omega), if_pos h1, cut]
  · have e : tag :: (byte (128 + o.length) :: o ++ c) ++ rest = tag :: byte (128 + o.length) :: (o ++ (c ++ rest)) := by simp
    have h5 : o ≠ [] := by
      rintro rfl
      have : octetsValue [] = 0 := rfl
      omega
    have h6 := List.length_pos_of_ne_nil h5
    rw [e]
    unfold readDer
    simp only
    have h7 := byte_val (128 + o.length) (by omega)
    rw [h7, if_neg (by omega), if_neg, Nat.add_sub_cancel_left, List.take_left' rfl, List.drop_left' rfl, ← value_number, h2, cut]
    rw [Nat.add_sub_cancel_left, List.length_append]
    rintro (h | h)
    · rw [h] at h7
      have : ((128 : Byte) : Nat) = 128 := rfl
      omega
    · omega

theorem der_ne {tag : Byte} {c text : Bytes} (h : Der tag c text) : text ≠ [] := by
  obtain ⟨l, -, rfl⟩ := h
  nofun

theorem readAll_der {tag : Byte} {c text : Bytes} (h : Der tag c text) (fuel : Nat) (rest : Bytes) :
    readAll (fuel + 1) (text ++ rest) = (readAll fuel rest).map ((tag.val, c) :: ·) := by
  have hne : text ++ rest ≠ [] := by simp [der_ne h]
  rw [readAll.eq_def]
  split
  · rename_i h'; exact absurd h' hne
  · rename_i hf _; cases hf
  · rename_i hf _
    cases hf
    rw [readDer_der h rest]

theorem readAll_nil (fuel : Nat) : readAll fuel [] = some [] := by
  unfold readAll
  rfl

theorem readSeq_der {c text : Bytes} (h : Der 48 c text) : readSeq text = readAll 9 c := by
  have := readDer_der h []
  rw [List.append_nil] at this
  unfold readSeq
  rw [this]
  rfl

/-- The values of a sequence of numbers. -/
theorem readAll_ints {l : List Nat} {text : Bytes} (h : DerInts l text) : ∀ fuel, l.length ≤ fuel →
    ∃ os : List Bytes, os.map number = l ∧ readAll fuel text = some (os.map ((2, ·))) := by
  induction h with
  | nil => exact fun fuel _ => ⟨[], rfl, readAll_nil fuel⟩
  | cons ha hb ih =>
    intro fuel hf
    obtain ⟨o, h1, -, -, h2⟩ := ha
    cases fuel with
    | zero => simp at hf
    | succ fuel =>
      obtain ⟨os, h3, h4⟩ := ih fuel (by simpa using hf)
      refine ⟨o :: os, by rw [List.map_cons, h3, ← value_number, h1], ?_⟩
      rw [readAll_der h2, h4]
      rfl

/-! ## Reading PEM -/

theorem a2bLoop_newlines (s : Bytes) : ∀ q l p, a2bLoop q l p s = a2bLoop q l p (s.filter (· ≠ 10)) := by
  induction s with
  | nil => exact fun _ _ _ => rfl
  | cons c s ih =>
    intro q l p
    by_cases hc : c = 10
    · subst hc
      rw [List.filter_cons_of_neg (by simp), ← ih]
      conv => lhs; unfold a2bLoop
      rw [if_neg (by decide)]
      rfl
    · rw [List.filter_cons_of_pos (by simpa using hc)]
      unfold a2bLoop
      simp only [← ih]

theorem base64_chars {m t : Bytes} (h : Base64 m t) : ∀ c ∈ t, c ≠ 10 ∧ c ≠ 45 := by
  obtain ⟨pad, -, hb, -⟩ := b2a_groups m
  rw [base64_iff.mp h] at hb
  intro c hc
  rw [hb, List.mem_append] at hc
  rcases hc with hc | hc
  · obtain ⟨g, hg, rfl⟩ := List.mem_map.mp hc
    have h1 := b64Char_val (groupsOf_lt m g hg)
    have e1 : ((10 : Byte) : Nat) = 10 := rfl
    have e2 : ((45 : Byte) : Nat) = 45 := rfl
    constructor
    · intro h2
      rw [h2, e1] at h1
      repeat' split at h1
      all_goals omega
    · intro h2
      rw [h2, e2] at h1
      repeat' split at h1
      all_goals omega
  · rw [(List.mem_replicate.mp hc).2]
    decide

theorem filter_lines (lines : List Bytes) (h : ∀ c ∈ lines.flatten, c ≠ (10 : Byte)) :
    (lines.flatMap (· ++ by! "\n")).filter (· ≠ 10) = lines.flatten := by
  induction lines with
  | nil => rfl
  | cons l lines ih =>
    simp only [List.flatten_cons, List.mem_append] at h
    rw [List.flatMap_cons, List.filter_append, ih (fun c hc => h c (Or.inr hc)), List.filter_append, List.flatten_cons,
      List.filter_eq_self.mpr (fun c hc => by simpa using h c (Or.inl hc))]
    simp

theorem takeWhile_append_all {α : Type} (p : α → Bool) (a : List α) (x : α) (b : List α) (ha : ∀ y ∈ a, p y = true) (hx : p x = false) :
    (a ++ x :: b).takeWhile p = a := by
  induction a with
  | nil => simp [hx]
  | cons y a ih => simp [ha y List.mem_cons_self, ih (fun z hz => ha z (List.mem_cons_of_mem _ hz))]

theorem dropWhile_append_all {α : Type} (p : α → Bool) (a : List α) (x : α) (b : List α) (ha : ∀ y ∈ a, p y = true) (hx : p x = false) :
    (a ++ x :: b).dropWhile p = x :: b := by
  induction a with
  | nil => simp [hx]
  | cons y a ih => simp [ha y List.mem_cons_self, ih (fun z hz => ha z (List.mem_cons_of_mem _ hz))]

theorem pemBody_text {label body text : Bytes} (hl : (10 : Byte) ∉ label) (h : PemText label body text) : pemBody text = .ok body := by
  obtain ⟨lines, hb, -, -, rfl⟩ := h
  have hc := base64_chars hb
  have e : by! "-----BEGIN " ++ label ++ by! "-----\n" ++ lines.flatMap (· ++ by! "\n") ++ by! "-----END " ++ label ++ by! "-----\n" =
      (by! "-----BEGIN " ++ label ++ by! "-----") ++ 10 :: (lines.flatMap (· ++ by! "\n") ++ 45 :: (by! "----END " ++ label ++
        by! "-----\n")) := by simp
  have h1 : ∀ y ∈ by! "-----BEGIN " ++ label ++ by! "-----", decide (y ≠ (10 : Byte)) = true := by
    intro y hy
    rw [decide_eq_true_iff]
    rintro rfl
    rw [List.mem_append, List.mem_append] at hy
    rcases hy with (hy | hy) | hy
    · exact absurd hy (by decide)
    · exact hl hy
    · exact absurd hy (by decide)
  have h2 : ∀ y ∈ lines.flatMap (· ++ by! "\n"), decide (y ≠ (45 : Byte)) = true := by
    intro y hy
    rw [decide_eq_true_iff]
    obtain ⟨l, hl, hy⟩ := List.mem_flatMap.mp hy
    rcases List.mem_append.mp hy with hy | hy
    · exact (hc y (List.mem_flatten.mpr ⟨l, hl, hy⟩)).2
    · rw [List.mem_singleton] at hy
      rw [hy]
      decide
  unfold pemBody a2b
  rw [e, dropWhile_append_all _ _ _ _ h1 (by decide), List.drop_succ_cons, List.drop_zero, takeWhile_append_all _ _ _ _ h2 (by decide),
    a2bLoop_newlines, filter_lines lines (fun c h => (hc c h).1), ← base64_iff.mp hb]
  exact a2b_b2a body 0 0

/-! ## Reading keys -/

theorem readDer_alone {tag : Byte} {c text : Bytes} (h : Der tag c text) : readDer text = some (tag.val, c, []) := by
  have := readDer_der h []
  rwa [List.append_nil] at this

theorem readAll_last {tag : Byte} {c text : Bytes} (h : Der tag c text) (fuel : Nat) : readAll (fuel + 1) text = some [(tag.val, c)] := by
  have := readAll_der h fuel []
  rw [List.append_nil, readAll_nil] at this
  exact this

theorem readSeq_rsa {n e : Nat} {r : RsaPriv} {text : Bytes} (h : RsaPrivateKey n e r text) :
    (readSeq text).bind rsaPrivateOf = some (.rsaPriv n e r) ∧ (readSeq text).bind privateOf = some (.rsaPriv n e r) := by
  obtain ⟨c, h1, h2⟩ := h
  obtain ⟨os, h3, h4⟩ := readAll_ints h1 9 (by simp)
  rw [readSeq_der h2, h4]
  obtain ⟨o0, os, rfl, -, h3⟩ := List.map_eq_cons_iff.mp h3
  obtain ⟨o1, os, rfl, hn, h3⟩ := List.map_eq_cons_iff.mp h3
  obtain ⟨o2, os, rfl, he, h3⟩ := List.map_eq_cons_iff.mp h3
  obtain ⟨o3, os, rfl, hd, h3⟩ := List.map_eq_cons_iff.mp h3
  obtain ⟨o4, os, rfl, hp, h3⟩ := List.map_eq_cons_iff.mp h3
  obtain ⟨o5, os, rfl, hq, h3⟩ := List.map_eq_cons_iff.mp h3
  obtain ⟨o6, os, rfl, hdp, h3⟩ := List.map_eq_cons_iff.mp h3
  obtain ⟨o7, os, rfl, hdq, h3⟩ := List.map_eq_cons_iff.mp h3
  obtain ⟨o8, os, rfl, hqi, h3⟩ := List.map_eq_cons_iff.mp h3
  obtain rfl := List.map_eq_nil_iff.mp h3
  have hr : r = ⟨number o3, number o4, number o5, number o6, number o7, number o8⟩ := by
    cases r
    simp only at hd hp hq hdp hdq hqi
    subst hd hp hq hdp hdq hqi
    rfl
  rw [hr, ← hn, ← he]
  exact ⟨rfl, rfl⟩

theorem size_eq (c : Curve) : (bits (domain c).p + 7) / 8 = coordinateSize c := by cases c <;> decide +kernel

theorem coordinate_lt (c : Curve) {x : Nat} (h : x < (domain c).p) : x < 256 ^ coordinateSize c := by
  refine lt_of_lt_of_le h ?_
  cases c <;> decide +kernel

theorem readPoint_point (c : Curve) {x y : Nat} (hx : x < (domain c).p) (hy : y < (domain c).p) :
    readPoint (curvePoint c x y) = some (x, y) := by
  unfold curvePoint
  show readPoint (4 :: (octets (coordinateSize c) x ++ octets (coordinateSize c) y)) = _
  unfold readPoint
  simp only
  rw [List.length_append, octets_len, octets_len, show (coordinateSize c + coordinateSize c) / 2 = coordinateSize c by omega,
    List.take_left' (octets_len _ _), List.drop_left' (octets_len _ _), number_octets _ _ (coordinate_lt c hx),
    number_octets _ _ (coordinate_lt c hy)]

theorem arcs_eq (c : Curve) : curveArcs c = curveOid c := by cases c <;> decide +kernel

theorem curveOfOid_arcs (c : Curve) : curveOfOid (curveArcs c) = some c := by cases c <;> decide +kernel

theorem order_le (c : Curve) : (domain c).n ≤ 256 ^ coordinateSize c := by cases c <;> decide +kernel

theorem readSeq_ec {named : Bool} {c : Curve} {x y d : Nat} {text : Bytes} (h : EcPrivateKey named c x y d text) (hx : x < (domain c).p)
    (hy : y < (domain c).p) (hd : d < (domain c).n) (o : Option Curve) (ho : named = false → o = some c) :
    (readSeq text).bind (ecPrivateOf o) = some (.ecPriv (some c) x y d) ∧
      (named = true → (readSeq text).bind privateOf = some (.ecPriv (some c) x y d)) := by
  obtain ⟨version, key, oid, params, point, pub, ⟨v, -, -, -, h1⟩, h2, h3, h4, h5, h6, h7⟩ := h
  have hp := readPoint_point c hx hy
  have hn : number (octets (coordinateSize c) d) = d := number_octets _ _ (lt_of_lt_of_le hd (order_le c))
  rw [readSeq_der h7]
  cases named with
  | true =>
    have : readAll 9 (version ++ key ++ params ++ pub) = some [(2, v), (4, octets (coordinateSize c) d), (160, oid), (161, point)] := by
      rw [List.append_assoc, List.append_assoc, readAll_der h1, readAll_der h2, readAll_der h4, readAll_last h6]
      rfl
    rw [if_pos rfl, this]
    simp only [Option.bind_some, ecPrivateOf, privateOf, rsaPrivateOf, readDer_alone h3, readDer_alone h5]
    have e6 : ((6 : Byte) : Nat) = 6 := rfl
    have e3 : ((3 : Byte) : Nat) = 3 := rfl
    simp only [e6, e3, hp, hn, curveOfOid_arcs]
    simp
  | false =>
    have : readAll 9 (version ++ key ++ [] ++ pub) = some [(2, v), (4, octets (coordinateSize c) d), (161, point)] := by
      rw [List.append_nil, List.append_assoc, readAll_der h1, readAll_der h2, readAll_last h6]
      rfl
    rw [if_neg (by decide), this]
    simp only [Option.bind_some, ecPrivateOf, readDer_alone h5]
    have e3 : ((3 : Byte) : Nat) = 3 := rfl
    simp only [e3, hp, hn, ho rfl]
    simp

theorem readAll_alg {m : Material} {text : Bytes} (h : KeyAlgorithm m text) :
    ∃ alg par t, Der 48 alg text ∧ ((∃ n e r, m = .rsa n e r) ∧ readAll 2 alg = some [(6, rsaOid), (t, par)] ∨
      ∃ c x y d, m = .ec c x y d ∧ par = curveArcs c ∧ readAll 2 alg = some [(6, ecOid), (t, par)]) := by
  cases m with
  | oct s => exact h.elim
  | rsa n e r =>
    obtain ⟨oid, null, h1, h2, h3⟩ := h
    refine ⟨_, [], 5, h3, Or.inl ⟨⟨n, e, r, rfl⟩, ?_⟩⟩
    rw [readAll_der h1, readAll_last h2, show oidOctets 1 2 [840, 113549, 1, 1, 1] = rsaOid by decide +kernel]
    rfl
  | ec c x y d =>
    obtain ⟨oid, curve, h1, h2, h3⟩ := h
    refine ⟨_, curveArcs c, 6, h3, Or.inr ⟨c, x, y, d, rfl, rfl, ?_⟩⟩
    rw [readAll_der h1, readAll_last h2, show oidOctets 1 2 [840, 10045, 2, 1] = ecOid by decide +kernel]
    rfl

theorem loadPrivate_of {body text label : Bytes} {k : PemKey} (hl : (10 : Byte) ∉ label) (h : PemText label body text)
    (hk : (readSeq body).bind privateOf = some k) : loadPrivate text = .ok k := by
  unfold loadPrivate
  rw [pemBody_text hl h]
  simp only [hk]

/-- The numbers of an EC key are those of a point and a number below the order. -/
def InRange : Material → Prop
  | .oct _ => True
  | .rsa _ _ _ => True
  | .ec c x y d => x < (domain c).p ∧ y < (domain c).p ∧ ∀ k, d = some k → k < (domain c).n

/-- The key as the reader returns it. -/
def pemKeyOf : Material → PemKey
  | .oct _ => .other
  | .rsa n e none => .rsaPub n e
  | .rsa n e (some r) => .rsaPriv n e r
  | .ec c x y none => .ecPub (some c) x y
  | .ec c x y (some d) => .ecPriv (some c) x y d

theorem load_traditional {m : Material} (hm : InRange m) {text : Bytes} (h : TraditionalText m text) : loadPrivate text = .ok (pemKeyOf m) := by
  match m, h with
  | .rsa n e (some r), ⟨body, h1, h2⟩ => exact loadPrivate_of (by decide) h2 (readSeq_rsa h1).2
  | .ec c x y (some d), ⟨body, h1, h2⟩ =>
    exact loadPrivate_of (by decide) h2 ((readSeq_ec h1 hm.1 hm.2.1 (hm.2.2 d rfl) none nofun).2 rfl)

theorem load_private {m : Material} (hm : InRange m) {text : Bytes} (h : PrivateText m text) : loadPrivate text = .ok (pemKeyOf m) := by
  obtain ⟨body, ⟨version, alg, key, str, ⟨v, -, -, -, h1⟩, h2, h3, h4, h5⟩, h6⟩ := h
  refine loadPrivate_of (by decide) h6 ?_
  obtain ⟨a, par, t, h7, h8⟩ := readAll_alg h2
  have h9 : readSeq body = some [(2, v), (48, a), (4, key)] := by
    rw [readSeq_der h5, List.append_assoc, readAll_der h1, readAll_der h7, readAll_last h4]
    rfl
  rw [h9, Option.bind_some]
  match m, h3 with
  | .rsa n e (some r), h3 =>
    rcases h8 with ⟨-, h8⟩ | ⟨c, x, y, d, h8, -⟩
    · obtain ⟨h10, -⟩ := readSeq_rsa h3
      obtain ⟨vals, h11, h12⟩ := Option.bind_eq_some_iff.mp h10
      simp only [privateOf, h8, h11, if_true, h12]
      rfl
    · cases h8
  | .ec c x y (some d), h3 =>
    rcases h8 with ⟨⟨n, e, r, h8⟩, -⟩ | ⟨c', x', y', d', h8, rfl, h8'⟩
    · cases h8
    · cases h8
      obtain ⟨h10, -⟩ := readSeq_ec h3 hm.1 hm.2.1 (hm.2.2 d rfl) (some c) (fun _ => rfl)
      obtain ⟨vals, h11, h12⟩ := Option.bind_eq_some_iff.mp h10
      simp only [privateOf, h8', h11, curveOfOid_arcs, h12, if_neg (show ecOid ≠ rsaOid by decide), if_true]
      rfl

theorem load_public {m : Material} (hm : InRange m) {text : Bytes} (h : PublicText m text) :
    loadPublic text = .ok (pemKeyOf (publicPart m)) := by
  obtain ⟨body, ⟨alg, key, str, h1, h2, h3, h4⟩, h5⟩ := h
  obtain ⟨a, par, t, h6, h7⟩ := readAll_alg h1
  have h8 : readSeq body = some [(48, a), (3, 0 :: key)] := by
    rw [readSeq_der h4, readAll_der h6, readAll_last h3]
    rfl
  unfold loadPublic
  rw [pemBody_text (by decide) h5]
  simp only [h8]
  match m, h2 with
  | .rsa n e r, h2 =>
    rcases h7 with ⟨-, h7⟩ | ⟨c, x, y, d, h7, -⟩
    · obtain ⟨c, h9, h10⟩ := h2
      obtain ⟨os, h11, h12⟩ := readAll_ints h9 9 (by simp)
      obtain ⟨o1, os, rfl, hn, h11⟩ := List.map_eq_cons_iff.mp h11
      obtain ⟨o2, os, rfl, he, h11⟩ := List.map_eq_cons_iff.mp h11
      obtain rfl := List.map_eq_nil_iff.mp h11
      rw [← readSeq_der h10] at h12
      simp only [h7, if_true, h12, List.map_cons, List.map_nil, hn, he]
      rfl
    · cases h7
  | .ec c x y d, h2 =>
    rcases h7 with ⟨⟨n, e, r, h7⟩, -⟩ | ⟨c', x', y', d', h7, rfl, h7'⟩
    · cases h7
    · cases h7
      simp only [h7', h2, curveOfOid_arcs, readPoint_point c hm.1 hm.2.1, if_neg (show ecOid ≠ rsaOid by decide), if_true]
      rfl

/-! ## Writing -/

theorem toBE_octets (len n : Nat) : toBE len n = octets len n := by
  induction len generalizing n with
  | zero => rfl
  | succ len ih => rw [toBE, octets, ih]

theorem bits_bound {n k : Nat} (h : n < 2 ^ k) : bits n ≤ k := bits_lt h

theorem derLength_iff {n : Nat} (hn : n < 2 ^ 80) (l : Bytes) : DerLength n l ↔ l = derLen n := by
  unfold DerLength derLen
  by_cases h : n < 128
  · rw [if_pos h]
    constructor
    · rintro (⟨-, h1⟩ | ⟨h1, -⟩)
      · exact h1
      · omega
    · exact fun h1 => Or.inl ⟨h, h1⟩
  · rw [if_neg h]
    have key : ∀ o : Bytes, (octetsValue o = n ∧ o.head? ≠ some 0) ↔ o = octetsOf ((bits n + 7) / 8) n := by
      intro o
      rw [minimal_iff (by omega), toBE_octets, octetsOf_eq]
      rfl
    have hb := bits_bound hn
    constructor
    · rintro (⟨h1, -⟩ | ⟨-, o, h1, h2, -, rfl⟩)
      · omega
      · rw [(key o).mp ⟨h1, h2⟩, octetsOf_length]
    · rintro rfl
      obtain ⟨h1, h2⟩ := (key _).mpr rfl
      exact Or.inr ⟨by omega, _, h1, h2, by rw [octetsOf_length]; omega, by rw [octetsOf_length]⟩

theorem der_iff {tag : Byte} {c text : Bytes} (hc : c.length < 2 ^ 80) : Der tag c text ↔ text = der tag c := by
  unfold Der der
  simp only [derLength_iff hc]
  constructor
  · rintro ⟨l, rfl, rfl⟩
    rfl
  · rintro rfl
    exact ⟨_, rfl, rfl⟩

theorem derLen_length {n : Nat} (hn : n < 2 ^ 80) : (derLen n).length ≤ 11 := by
  unfold derLen
  have := bits_bound hn
  split
  · simp
  · rw [List.length_cons, octetsOf_length]
    omega

theorem der_length (tag : Byte) {c : Bytes} (hc : c.length < 2 ^ 80) : (der tag c).length ≤ c.length + 12 := by
  unfold der
  have := derLen_length hc
  rw [List.length_cons, List.length_append]
  omega

theorem head_small : ∀ x : Byte, ((bitsOf 8 x.val).head? = some false) ↔ x.val < 128 := by decide +kernel

theorem take_nine (x y : Byte) (b : Bytes) :
    (octetBits (x :: y :: b)).take 9 = List.replicate 9 false ↔ x.val = 0 ∧ y.val < 128 := by
  have h : ∀ x : Byte, bitsOf 8 x.val = List.replicate 8 false ↔ x.val = 0 := by decide +kernel
  have h1 : ∀ y : Byte, (bitsOf 8 y.val).take 1 = [false] ↔ y.val < 128 := by decide +kernel
  rw [octetBits_cons, octetBits_cons, List.take_append, bitsOf_length, List.take_of_length_le (by rw [bitsOf_length]; decide),
    show 9 - 8 = 1 from rfl, List.take_append_of_le_length (by rw [bitsOf_length]; decide),
    show List.replicate 9 false = List.replicate 8 false ++ [false] from rfl, ← h, ← h1]
  exact ⟨fun h2 => List.append_inj h2 (by rw [bitsOf_length]; rfl), fun ⟨h2, h3⟩ => by rw [h2, h3]⟩

theorem two_pow_256 (k : Nat) : 256 ^ k = 2 ^ (8 * k) := by rw [Nat.pow_mul]

/-- The octets of an integer. -/
theorem derOctets_iff {n : Nat} (o : Bytes) :
    (octetsValue o = n ∧ (octetBits o).head? = some false ∧ (octetBits o).take 9 ≠ List.replicate 9 false) ↔
      o = octetsOf (bits n / 8 + 1) n := by
  rw [value_number, octetsOf_eq]
  constructor
  · rintro ⟨h1, h2, h3⟩
    have hlen : o.length = bits n / 8 + 1 := by
      cases o with
      | nil => cases h2
      | cons x b =>
        have hx : x.val < 128 := by
          rw [octetBits_cons, List.head?_append_of_ne_nil] at h2
          · exact (head_small x).mp h2
          · intro h
            have := congrArg List.length h
            rw [bitsOf_length] at this
            cases this
        have hlt : n < 2 ^ (8 * b.length + 7) := by
          rw [← h1, number_cons, Nat.pow_add, two_pow_256, Nat.mul_comm (2 ^ _)]
          have := number_lt b
          rw [two_pow_256] at this
          have := Nat.mul_le_mul_right (2 ^ (8 * b.length)) (show x.val + 1 ≤ 2 ^ 7 by omega)
          rw [Nat.add_mul] at this
          omega
        have hb := bits_bound hlt
        rw [List.length_cons]
        cases b with
        | nil => simp only [List.length_nil] at hb ⊢; omega
        | cons y b =>
          have hge : 2 ^ (8 * b.length + 7) ≤ n := by
            rw [← h1, number_cons, number_cons, List.length_cons, two_pow_256, two_pow_256]
            have hp : 2 ^ (8 * (b.length + 1)) = 2 * 2 ^ (8 * b.length + 7) := by
              rw [show 8 * (b.length + 1) = (8 * b.length + 7) + 1 by omega, Nat.pow_succ, Nat.mul_comm]
            rw [hp, Nat.pow_add]
            by_cases hx0 : x.val = 0
            · have hy : ¬ y.val < 128 := fun hy => h3 ((take_nine x y b).mpr ⟨hx0, hy⟩)
              have := Nat.mul_le_mul_right (2 ^ (8 * b.length)) (show 2 ^ 7 ≤ y.val by omega)
              rw [Nat.mul_comm (2 ^ 7)] at this
              omega
            · have := Nat.mul_le_mul_right (2 * (2 ^ (8 * b.length) * 2 ^ 7)) (show 1 ≤ x.val by omega)
              omega
          have hb2 : 8 * b.length + 7 < bits n := by
            by_contra hcon
            have := lt_of_lt_of_le (lt_bits n) (Nat.pow_le_pow_right (by decide : 1 ≤ 2) (Nat.le_of_not_lt hcon))
            omega
          simp only [List.length_cons] at hb ⊢
          omega
    rw [← hlen, ← h1, octets_number]
  · rintro rfl
    have hn := number_derOctets n
    refine ⟨hn, ?_⟩
    have hl := octets_len (bits n / 8 + 1) n
    generalize octets (bits n / 8 + 1) n = o at hn hl
    cases o with
    | nil => simp at hl
    | cons x b =>
      rw [List.length_cons] at hl
      have hx : x.val < 128 := by
        by_contra hx
        have h1 := lt_bits n
        have h2 : 2 ^ bits n ≤ 2 ^ (8 * b.length + 7) := Nat.pow_le_pow_right (by decide) (by omega)
        rw [number_cons, two_pow_256] at hn
        have h3 := Nat.mul_le_mul_right (2 ^ (8 * b.length)) (show 2 ^ 7 ≤ x.val by omega)
        rw [Nat.pow_add, Nat.mul_comm (2 ^ (8 * b.length))] at h2
        omega
      refine ⟨?_, ?_⟩
      · rw [octetBits_cons, List.head?_append_of_ne_nil]
        · exact (head_small x).mpr hx
        · intro h
          have := congrArg List.length h
          rw [bitsOf_length] at this
          cases this
      · cases b with
        | nil =>
          intro h
          have := congrArg List.length h
          rw [List.length_take, octetBits_length, List.length_replicate, List.length_singleton] at this
          omega
        | cons y b =>
          rw [Ne, take_nine]
          rintro ⟨h0, hy⟩
          rw [List.length_cons] at hl
          rw [number_cons, number_cons, h0, Nat.zero_mul, Nat.zero_add, two_pow_256] at hn
          have h1 := number_lt b
          rw [two_pow_256] at h1
          have h2 := Nat.mul_le_mul_right (2 ^ (8 * b.length)) (show y.val + 1 ≤ 2 ^ 7 by omega)
          rw [Nat.add_mul] at h2
          have h3 : n < 2 ^ (8 * b.length + 7) := by
            rw [Nat.pow_add, Nat.mul_comm]
            omega
          have := bits_bound h3
          omega

theorem derInt_iff {n : Nat} (hn : bits n ≤ 2 ^ 64) (text : Bytes) : DerInt n text ↔ text = derInt n := by
  unfold DerInt derInt
  have hl : (octetsOf (bits n / 8 + 1) n).length < 2 ^ 80 := by
    rw [octetsOf_length]
    omega
  constructor
  · rintro ⟨o, h1, h2, h3, h4⟩
    obtain rfl := (derOctets_iff o).mp ⟨h1, h2, h3⟩
    exact (der_iff hl).mp h4
  · intro h
    obtain ⟨h1, h2, h3⟩ := (derOctets_iff (n := n) _).mpr rfl
    exact ⟨_, h1, h2, h3, (der_iff hl).mpr h⟩

theorem derInt_length {n : Nat} (hn : bits n ≤ 2 ^ 64) : (derInt n).length ≤ 2 ^ 62 := by
  have hl : (octetsOf (bits n / 8 + 1) n).length < 2 ^ 80 := by
    rw [octetsOf_length]
    omega
  have := der_length 2 hl
  rw [octetsOf_length] at this
  unfold derInt
  omega

theorem derInts_iff {l : List Nat} (hl : ∀ n ∈ l, bits n ≤ 2 ^ 64) (text : Bytes) : DerInts l text ↔ text = l.flatMap derInt := by
  induction l generalizing text with
  | nil =>
    constructor
    · intro h
      cases h
      rfl
    · rintro rfl
      exact .nil
  | cons n l ih =>
    constructor
    · intro h
      cases h with
      | cons ha hb =>
        rw [(derInt_iff (hl n List.mem_cons_self) _).mp ha, (ih (fun x hx => hl x (List.mem_cons_of_mem _ hx)) _).mp hb]
        rfl
    · rintro rfl
      exact .cons ((derInt_iff (hl n List.mem_cons_self) _).mpr rfl) ((ih (fun x hx => hl x (List.mem_cons_of_mem _ hx)) _).mpr rfl)

theorem flatMap_derInt_length {l : List Nat} (hl : ∀ n ∈ l, bits n ≤ 2 ^ 64) : (l.flatMap derInt).length ≤ l.length * 2 ^ 62 := by
  induction l with
  | nil => simp
  | cons n l ih =>
    rw [List.flatMap_cons, List.length_append, List.length_cons, Nat.add_mul]
    have := derInt_length (hl n List.mem_cons_self)
    have := ih (fun x hx => hl x (List.mem_cons_of_mem _ hx))
    omega

/-- Lines of 64 characters, the last of which may be shorter. -/
def Lines (lines : List Bytes) : Prop :=
  (∀ line ∈ lines.dropLast, line.length = 64) ∧ ∀ line ∈ lines.getLast?, 1 ≤ line.length ∧ line.length ≤ 64

theorem lines_chunks : ∀ (lines : List Bytes), Lines lines → ∀ fuel, lines.flatten.length ≤ fuel → chunks 64 fuel lines.flatten = lines
  | [], _, fuel, _ => by cases fuel <;> rfl
  | [l], ⟨_, h⟩, fuel, hf => by
    have h1 := h l rfl
    simp only [List.flatten_cons, List.flatten_nil, List.append_nil] at hf ⊢
    cases fuel with
    | zero => omega
    | succ fuel =>
      have hne : l ≠ [] := List.ne_nil_of_length_pos (by omega)
      rw [chunks, if_neg (by simpa using hne), List.take_of_length_le h1.2, List.drop_of_length_le h1.2]
      cases fuel <;> rfl
  | l :: l' :: rest, ⟨h, h'⟩, fuel, hf => by
    have h1 : l.length = 64 := h l (by simp)
    rw [List.flatten_cons] at hf ⊢
    rw [List.length_append] at hf
    cases fuel with
    | zero => omega
    | succ fuel =>
      have hne : l ++ (l' :: rest).flatten ≠ [] := List.ne_nil_of_length_pos (by rw [List.length_append]; omega)
      rw [chunks, if_neg (by simpa using hne), List.take_left' h1, List.drop_left' h1,
        lines_chunks (l' :: rest) ⟨fun x hx => h x (by rw [List.dropLast_cons_of_ne_nil (by simp)]; exact List.mem_cons_of_mem _ hx),
          fun x hx => h' x (by rw [List.getLast?_cons_cons]; exact hx)⟩ fuel (by omega)]

theorem chunks_lines : ∀ (fuel : Nat) (l : Bytes), l.length ≤ fuel → (chunks 64 fuel l).flatten = l ∧ Lines (chunks 64 fuel l)
  | 0, l, h => by
    obtain rfl := List.length_eq_zero_iff.mp (Nat.le_zero.mp h)
    exact ⟨rfl, nofun, nofun⟩
  | fuel + 1, l, h => by
    by_cases hl : l = []
    · subst hl
      exact ⟨rfl, nofun, nofun⟩
    · have hpos := List.length_pos_of_ne_nil hl
      have hd : (l.drop 64).length = l.length - 64 := List.length_drop
      have ht : (l.take 64).length = min 64 l.length := List.length_take
      obtain ⟨h1, h2, h3⟩ := chunks_lines fuel (l.drop 64) (by omega)
      rw [chunks, if_neg (by simpa using hl)]
      refine ⟨by rw [List.flatten_cons, h1, List.take_append_drop], ?_⟩
      by_cases he : chunks 64 fuel (l.drop 64) = []
      · rw [he]
        refine ⟨nofun, ?_⟩
        intro x hx
        obtain rfl : l.take 64 = x := Option.some.inj hx
        omega
      · have h4 : 64 < l.length := by
          by_contra hc
          rw [List.drop_of_length_le (by omega)] at he
          exact he (by cases fuel <;> rfl)
        refine ⟨?_, ?_⟩
        · intro x hx
          rw [List.dropLast_cons_of_ne_nil he] at hx
          rcases List.mem_cons.mp hx with rfl | hx
          · omega
          · exact h2 x hx
        · intro x hx
          obtain ⟨a, b, hab⟩ := List.exists_cons_of_ne_nil he
          rw [hab, List.getLast?_cons_cons, ← hab] at hx
          exact h3 x hx

theorem pem_iff {label body : Bytes} (text : Bytes) : PemText label body text ↔ text = pem label body := by
  unfold PemText pem
  constructor
  · rintro ⟨lines, h1, h2, h3, rfl⟩
    have h4 := base64_iff.mp h1
    rw [h4, lines_chunks lines ⟨h2, h3⟩ _ (Nat.le_refl _)]
  · rintro rfl
    obtain ⟨h1, h2, h3⟩ := chunks_lines (b2a body).length (b2a body) (Nat.le_refl _)
    exact ⟨_, by rw [h1]; exact base64_iff.mpr rfl, h2, h3, rfl⟩

/-- No number of an RSA key has more than `2 ^ 64` bits. -/
def Sized : Material → Prop
  | .oct _ => True
  | .ec _ _ _ _ => True
  | .rsa n e r => bits n ≤ 2 ^ 64 ∧ bits e ≤ 2 ^ 64 ∧
    ∀ k, r = some k → ∀ x ∈ [k.d, k.p, k.q, k.dp, k.dq, k.qi], bits x ≤ 2 ^ 64

theorem exists_eq_and {α : Type} {p q : α → Prop} {a : α} (h : ∀ x, p x ↔ x = a) : (∃ x, p x ∧ q x) ↔ q a := by
  simp only [h]
  exact ⟨fun ⟨x, hx, hq⟩ => hx ▸ hq, fun hq => ⟨a, rfl, hq⟩⟩

theorem rsaPrivateKey_iff {n e : Nat} {r : RsaPriv} (h : Sized (.rsa n e (some r))) (text : Bytes) :
    RsaPrivateKey n e r text ↔ text = der 48 (derInt 0 ++ derInt n ++ derInt e ++ derInt r.d ++ derInt r.p ++ derInt r.q ++ derInt r.dp ++
      derInt r.dq ++ derInt r.qi) := by
  have hall : ∀ x ∈ [0, n, e, r.d, r.p, r.q, r.dp, r.dq, r.qi], bits x ≤ 2 ^ 64 := by
    intro x hx
    rcases List.mem_cons.mp hx with rfl | hx
    · decide
    rcases List.mem_cons.mp hx with rfl | hx
    · exact h.1
    rcases List.mem_cons.mp hx with rfl | hx
    · exact h.2.1
    exact h.2.2 r rfl x hx
  have hlen := flatMap_derInt_length hall
  simp only [List.length_cons, List.length_nil] at hlen
  unfold RsaPrivateKey
  rw [exists_eq_and (derInts_iff hall), der_iff (by omega)]
  simp [List.flatMap_cons]

theorem rsaPublicKey_iff {n e : Nat} (hn : bits n ≤ 2 ^ 64) (he : bits e ≤ 2 ^ 64) (text : Bytes) :
    RsaPublicKey n e text ↔ text = der 48 (derInt n ++ derInt e) := by
  have hall : ∀ x ∈ [n, e], bits x ≤ 2 ^ 64 := by
    intro x hx
    rcases List.mem_cons.mp hx with rfl | hx
    · exact hn
    · rw [List.mem_singleton.mp hx]
      exact he
  have hlen := flatMap_derInt_length hall
  simp only [List.length_cons, List.length_nil] at hlen
  unfold RsaPublicKey
  rw [exists_eq_and (derInts_iff hall), der_iff (by omega)]
  simp [List.flatMap_cons]

theorem point_eq (c : Curve) (x y : Nat) : pointOf c x y = 0 :: curvePoint c x y := by
  unfold pointOf curvePoint
  rw [size_eq, octetsOf_eq, octetsOf_eq]
  rfl

theorem point_length (c : Curve) (x y : Nat) : (curvePoint c x y).length ≤ 133 := by
  unfold curvePoint
  simp only [List.length_append, octets_len, List.length_cons, List.length_nil]
  cases c <;> decide

theorem arcs_length (c : Curve) : (curveArcs c).length ≤ 8 := by cases c <;> decide +kernel

theorem coordinate_size (c : Curve) : coordinateSize c ≤ 66 := by cases c <;> decide

theorem ecPrivateKey_iff (c : Curve) (x y d : Nat) (text : Bytes) :
    EcPrivateKey true c x y d text ↔ text = der 48 (derInt 1 ++ der 4 (octetsOf ((bits (domain c).p + 7) / 8) d) ++
      der 160 (der 6 (curveOid c)) ++ der 161 (der 3 (pointOf c x y))) := by
  have b1 := point_length c x y
  have b2 := arcs_length c
  have b3 := coordinate_size c
  have l0 := derInt_length (n := 1) (by decide)
  have l1 : (octets (coordinateSize c) d).length < 2 ^ 80 := by rw [octets_len]; omega
  have l2 : (curveArcs c).length < 2 ^ 80 := by omega
  have l3 : (0 :: curvePoint c x y).length < 2 ^ 80 := by rw [List.length_cons]; omega
  have m1 := der_length 4 l1
  have m2 := der_length 6 l2
  have m3 := der_length 3 l3
  have l4 : (der 6 (curveArcs c)).length < 2 ^ 80 := by omega
  rw [List.length_cons] at m3
  have l5 : (der 3 (0 :: curvePoint c x y)).length < 2 ^ 80 := by omega
  have m4 := der_length 0xa0 l4
  have m5 := der_length 0xa1 l5
  rw [octets_len] at m1
  have l6 : (derInt 1 ++ der 4 (octets (coordinateSize c) d) ++ der 0xa0 (der 6 (curveArcs c)) ++
      der 0xa1 (der 3 (0 :: curvePoint c x y))).length < 2 ^ 80 := by
    simp only [List.length_append]
    omega
  unfold EcPrivateKey
  rw [point_eq, size_eq, octetsOf_eq, ← arcs_eq]
  constructor
  · rintro ⟨v, k, o, q, pt, pub, h1, h2, h3, h4, h5, h6, h7⟩
    obtain rfl := (derInt_iff (by decide) _).mp h1
    obtain rfl := (der_iff l1).mp h2
    obtain rfl := (der_iff l2).mp h3
    obtain rfl := (der_iff l4).mp h4
    obtain rfl := (der_iff l3).mp h5
    obtain rfl := (der_iff l5).mp h6
    rw [if_pos rfl] at h7
    exact (der_iff l6).mp h7
  · intro h
    refine ⟨_, _, _, _, _, _, (derInt_iff (by decide) _).mpr rfl, (der_iff l1).mpr rfl, (der_iff l2).mpr rfl, (der_iff l4).mpr rfl,
      (der_iff l3).mpr rfl, (der_iff l5).mpr rfl, ?_⟩
    rw [if_pos rfl]
    exact (der_iff l6).mpr h

theorem publicKeyInfo_rsa {n e : Nat} {r : Option RsaPriv} (hn : bits n ≤ 2 ^ 64) (he : bits e ≤ 2 ^ 64) (text : Bytes) :
    PublicKeyInfo (.rsa n e r) text ↔
      text = der 48 (der 48 (der 6 rsaOid ++ der 5 []) ++ der 3 (0 :: der 48 (derInt n ++ derInt e))) := by
  have i1 := derInt_length hn
  have i2 := derInt_length he
  have l0 : (derInt n ++ derInt e).length < 2 ^ 80 := by rw [List.length_append]; omega
  have m0 := der_length 48 l0
  rw [List.length_append] at m0
  have l1 : (0 :: der 48 (derInt n ++ derInt e)).length < 2 ^ 80 := by rw [List.length_cons]; omega
  have m1 := der_length 3 l1
  rw [List.length_cons] at m1
  have eo : oidOctets 1 2 [840, 113549, 1, 1, 1] = rsaOid := by decide +kernel
  have l2 : rsaOid.length < 2 ^ 80 := by decide
  have l3 : ([] : Bytes).length < 2 ^ 80 := by decide
  have l4 : (der 6 rsaOid ++ der 5 []).length < 2 ^ 80 := by decide +kernel
  have l5 : (der 48 (der 6 rsaOid ++ der 5 [])).length ≤ 100 := by decide +kernel
  have l6 : (der 48 (der 6 rsaOid ++ der 5 []) ++ der 3 (0 :: der 48 (derInt n ++ derInt e))).length < 2 ^ 80 := by
    rw [List.length_append]
    omega
  unfold PublicKeyInfo KeyAlgorithm
  simp only [eo]
  constructor
  · rintro ⟨alg, key, str, ⟨oid, null, h1, h2, h3⟩, h4, h5, h6⟩
    obtain rfl := (der_iff l2).mp h1
    obtain rfl := (der_iff l3).mp h2
    obtain rfl := (der_iff l4).mp h3
    obtain rfl := (rsaPublicKey_iff hn he _).mp h4
    obtain rfl := (der_iff l1).mp h5
    exact (der_iff l6).mp h6
  · intro h
    exact ⟨_, _, _, ⟨_, _, (der_iff l2).mpr rfl, (der_iff l3).mpr rfl, (der_iff l4).mpr rfl⟩, (rsaPublicKey_iff hn he _).mpr rfl,
      (der_iff l1).mpr rfl, (der_iff l6).mpr h⟩

theorem publicKeyInfo_ec (c : Curve) (x y : Nat) (d : Option Nat) (text : Bytes) :
    PublicKeyInfo (.ec c x y d) text ↔ text = der 48 (der 48 (der 6 ecOid ++ der 6 (curveOid c)) ++ der 3 (pointOf c x y)) := by
  have b1 := point_length c x y
  have b2 := arcs_length c
  have eo : oidOctets 1 2 [840, 10045, 2, 1] = ecOid := by decide +kernel
  have l1 : (0 :: curvePoint c x y).length < 2 ^ 80 := by rw [List.length_cons]; omega
  have m1 := der_length 3 l1
  rw [List.length_cons] at m1
  have l2 : ecOid.length < 2 ^ 80 := by decide
  have l3 : (curveArcs c).length < 2 ^ 80 := by omega
  have m3 := der_length 6 l3
  have m2 : (der 6 ecOid).length ≤ 100 := by decide +kernel
  have l4 : (der 6 ecOid ++ der 6 (curveArcs c)).length < 2 ^ 80 := by rw [List.length_append]; omega
  have m4 := der_length 48 l4
  rw [List.length_append] at m4
  have l6 : (der 48 (der 6 ecOid ++ der 6 (curveArcs c)) ++ der 3 (0 :: curvePoint c x y)).length < 2 ^ 80 := by
    rw [List.length_append]
    omega
  unfold PublicKeyInfo KeyAlgorithm
  rw [point_eq, ← arcs_eq]
  simp only [eo]
  constructor
  · rintro ⟨alg, key, str, ⟨oid, null, h1, h2, h3⟩, rfl, h5, h6⟩
    obtain rfl := (der_iff l2).mp h1
    obtain rfl := (der_iff l3).mp h2
    obtain rfl := (der_iff l4).mp h3
    obtain rfl := (der_iff l1).mp h5
    exact (der_iff l6).mp h6
  · intro h
    exact ⟨_, _, _, ⟨_, _, (der_iff l2).mpr rfl, (der_iff l3).mpr rfl, (der_iff l4).mpr rfl⟩, rfl, (der_iff l1).mpr rfl,
      (der_iff l6).mpr h⟩

theorem publicText_iff {m : Material} (hs : Sized m) (ha : m.kty ≠ .oct) (text : Bytes) : PublicText m text ↔ text = writer.pub m := by
  unfold PublicText
  cases m with
  | oct s => exact absurd rfl ha
  | rsa n e r =>
    rw [exists_eq_and (publicKeyInfo_rsa hs.1 hs.2.1), pem_iff]
    rfl
  | ec c x y d =>
    rw [exists_eq_and (publicKeyInfo_ec c x y d), pem_iff]
    rfl

theorem traditionalText_iff {m : Material} (hs : Sized m) (text : Bytes) :
    TraditionalText m text ↔ (∃ n e r, m = .rsa n e (some r)) ∧ text = writer.priv m ∨ (∃ c x y d, m = .ec c x y (some d)) ∧ text = writer.priv m := by
  match m with
  | .oct s => simp [TraditionalText]
  | .rsa n e none => simp [TraditionalText]
  | .ec c x y none => simp [TraditionalText]
  | .rsa n e (some r) =>
    unfold TraditionalText
    simp only
    rw [exists_eq_and (rsaPrivateKey_iff hs), pem_iff]
    simp [writer]
  | .ec c x y (some d) =>
    unfold TraditionalText
    simp only
    rw [exists_eq_and (ecPrivateKey_iff c x y d), pem_iff]
    simp [writer]

end Psion.Real
