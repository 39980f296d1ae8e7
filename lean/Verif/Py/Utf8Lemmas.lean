import Verif.Py.Utf8
import Verif.Py.Base64Lemmas

/-! Helper lemmas about UTF-8. -/

namespace Psion

/-- Text that `str.encode("utf-8")` accepts. -/
def Encodable (s : PyStr) : Prop := ∀ c ∈ s, scalar c = true

theorem scalar_iff (n : Nat) : scalar n = true ↔ n < 0xD800 ∨ (0xE000 ≤ n ∧ n < 0x110000) := by
  simp [scalar]

theorem segs_step1 (b0 : Byte) (t : Bytes) (h : b0.val < 0x80) :
    utf8Segs (b0 :: t) = some b0.val :: utf8Segs t := by
  rw [utf8Segs.eq_def]; dsimp only
  rw [if_pos h]

theorem segs_step2 (b0 b1 : Byte) (t : Bytes) (h : 0xC2 ≤ b0.val) (h' : b0.val < 0xE0)
    (h1 : cont b1 = true) :
    utf8Segs (b0 :: b1 :: t) = some ((b0.val - 0xC0) * 64 + (b1.val - 0x80)) :: utf8Segs t := by
  rw [utf8Segs.eq_def]; dsimp only
  rw [if_neg (by omega), if_neg (by omega), if_pos (by omega)]
  simp only [h1, if_true]

theorem segs_step3 (b0 b1 b2 : Byte) (t : Bytes) (h : 0xE0 ≤ b0.val) (h' : b0.val < 0xF0)
    (h1 : second3 b0 b1 = true) (h2 : cont b2 = true) :
    utf8Segs (b0 :: b1 :: b2 :: t) =
      some ((b0.val - 0xE0) * 4096 + (b1.val - 0x80) * 64 + (b2.val - 0x80)) :: utf8Segs t := by
  rw [utf8Segs.eq_def]; dsimp only
  rw [if_neg (by omega), if_neg (by omega), if_neg (by omega), if_pos (by omega)]
  simp only [h1, h2, if_true]

theorem segs_step4 (b0 b1 b2 b3 : Byte) (t : Bytes) (h : 0xF0 ≤ b0.val) (h' : b0.val < 0xF5)
    (h1 : second4 b0 b1 = true) (h2 : cont b2 = true) (h3 : cont b3 = true) :
    utf8Segs (b0 :: b1 :: b2 :: b3 :: t) =
      some ((b0.val - 0xF0) * 262144 + (b1.val - 0x80) * 4096 + (b2.val - 0x80) * 64
                    + (b3.val - 0x80)) :: utf8Segs t := by
  rw [utf8Segs.eq_def]; dsimp only
  rw [if_neg (by omega), if_neg (by omega), if_neg (by omega), if_neg (by omega),
    if_pos (by omega)]
  simp only [h1, h2, h3, if_true]

theorem cont_byte {n : Nat} (h : n < 64) : cont (byte (0x80 + n)) = true := by
  unfold cont; rw [byte_of_lt (by omega)]; simp; omega

theorem utf8Segs_encodeChar (c : Nat) (b rest : Bytes) (h : utf8EncodeChar c = .ok b) :
    utf8Segs (b ++ rest) = some c :: utf8Segs rest := by
  unfold utf8EncodeChar at h
  split at h
  · cases h
    rename_i h1
    simp only [List.cons_append, List.nil_append]
    rw [segs_step1 _ _ (by simp only [byte_val]; omega), byte_of_lt (by omega)]
  split at h
  · cases h
    rename_i h1 h2
    simp only [List.cons_append, List.nil_append]
    rw [segs_step2 _ _ _ (by simp only [byte_val]; omega) (by simp only [byte_val]; omega)
      (cont_byte (by omega)), byte_of_lt (by omega), byte_of_lt (by omega)]
    exact congrArg (some · :: utf8Segs rest) (by omega)
  split at h
  · cases h
  rename_i h1 h2 hs
  have hs' : c < 0xD800 ∨ (0xE000 ≤ c ∧ c < 0x110000) := by
    rw [← scalar_iff]; simpa using hs
  split at h
  · cases h
    rename_i h3
    simp only [List.cons_append, List.nil_append]
    rw [segs_step3 _ _ _ _ (by simp only [byte_val]; omega) (by simp only [byte_val]; omega)
      _ (cont_byte (by omega)), byte_of_lt (by omega), byte_of_lt (by omega),
      byte_of_lt (by omega)]
    · exact congrArg (some · :: utf8Segs rest) (by omega)
    · unfold second3 cont
      rw [byte_of_lt (by omega), byte_of_lt (by omega)]
      split
      · simp; omega
      split <;> (simp; omega)
  · cases h
    rename_i h3
    simp only [List.cons_append, List.nil_append]
    rw [segs_step4 _ _ _ _ _ (by simp only [byte_val]; omega) (by simp only [byte_val]; omega)
      _ (cont_byte (by omega)) (cont_byte (by omega)), byte_of_lt (by omega),
      byte_of_lt (by omega), byte_of_lt (by omega), byte_of_lt (by omega)]
    · exact congrArg (some · :: utf8Segs rest) (by omega)
    · unfold second4 cont
      rw [byte_of_lt (by omega), byte_of_lt (by omega)]
      split
      · simp; omega
      split <;> (simp; omega)

theorem utf8EncodeChar_ok {c : Nat} (h : scalar c = true) : ∃ b, utf8EncodeChar c = .ok b := by
  unfold utf8EncodeChar
  rw [h]
  split
  · exact ⟨_, rfl⟩
  split
  · exact ⟨_, rfl⟩
  rw [if_neg (by decide)]
  split <;> exact ⟨_, rfl⟩

theorem utf8EncodeChar_scalar {c : Nat} {b : Bytes} (h : utf8EncodeChar c = .ok b) :
    scalar c = true := by
  unfold utf8EncodeChar at h
  split at h
  · rw [scalar_iff]; omega
  split at h
  · rw [scalar_iff]; omega
  split at h
  · cases h
  · rename_i hs; simpa using hs

theorem utf8Segs_encode (s : PyStr) : ∀ b rest, utf8Encode s = .ok b →
    utf8Segs (b ++ rest) = s.map some ++ utf8Segs rest := by
  induction s with
  | nil => intro b rest h; cases h; rfl
  | cons c s ih =>
    intro b rest h
    simp only [utf8Encode] at h
    split at h
    · cases h
    · split at h
      · cases h
      · cases h
        rename_i _ bc hc _ r hr
        rw [List.append_assoc, utf8Segs_encodeChar c bc _ hc, ih r rest hr]
        rfl

theorem allSome_map_some (s : PyStr) : allSome (s.map some) = some s := by
  induction s with
  | nil => rfl
  | cons c s ih => simp [allSome, ih]

theorem utf8Segs_nil : utf8Segs [] = [] := by unfold utf8Segs; rfl

theorem utf8Decode_encode {s : PyStr} {b : Bytes} (h : utf8Encode s = .ok b) :
    utf8Decode b = some s := by
  have := utf8Segs_encode s b [] h
  rw [List.append_nil, utf8Segs_nil, List.append_nil] at this
  rw [utf8Decode, this, allSome_map_some]

theorem utf8DecodeReplace_encode {s : PyStr} {b : Bytes} (h : utf8Encode s = .ok b) :
    utf8DecodeReplace b = s := by
  have := utf8Segs_encode s b [] h
  rw [List.append_nil, utf8Segs_nil, List.append_nil] at this
  rw [utf8DecodeReplace, this]
  simp [Function.comp_def]

theorem utf8Encode_ok {s : PyStr} (h : Encodable s) : ∃ b, utf8Encode s = .ok b := by
  induction s with
  | nil => exact ⟨[], rfl⟩
  | cons c s ih =>
    obtain ⟨b, hb⟩ := utf8EncodeChar_ok (h c (List.mem_cons_self))
    obtain ⟨r, hr⟩ := ih (fun x hx => h x (List.mem_cons_of_mem _ hx))
    exact ⟨b ++ r, by simp [utf8Encode, hb, hr]⟩

theorem utf8Encode_encodable {s : PyStr} {b : Bytes} (h : utf8Encode s = .ok b) : Encodable s := by
  induction s generalizing b with
  | nil => intro c hc; cases hc
  | cons c s ih =>
    simp only [utf8Encode] at h
    split at h
    · cases h
    · split at h
      · cases h
      · rename_i _ bc hc _ r hr
        intro x hx
        rcases List.mem_cons.mp hx with rfl | hx
        · exact utf8EncodeChar_scalar hc
        · exact ih hr x hx

theorem utf8EncodeChar_error {c : Nat} {e : Exc} (h : utf8EncodeChar c = .error e) :
    e = .unicodeEncode := by
  unfold utf8EncodeChar at h
  repeat' split at h
  all_goals cases h
  rfl

theorem utf8Encode_error {s : PyStr} {e : Exc} (h : utf8Encode s = .error e) :
    e = .unicodeEncode := by
  induction s with
  | nil => cases h
  | cons c s ih =>
    simp only [utf8Encode] at h
    split at h
    · cases h; exact utf8EncodeChar_error (by assumption)
    · split at h
      · cases h; exact ih (by assumption)
      · cases h

theorem utf8Encode_append {s t : PyStr} {b d : Bytes} (h : utf8Encode s = .ok b)
    (h' : utf8Encode t = .ok d) : utf8Encode (s ++ t) = .ok (b ++ d) := by
  induction s generalizing b with
  | nil => cases h; exact h'
  | cons c s ih =>
    simp only [utf8Encode] at h
    split at h
    · cases h
    · split at h
      · cases h
      · rename_i _ bc hc _ r hr
        cases h
        simp [utf8Encode, hc, ih hr]

theorem utf8EncodeChar_two {b0 b1 : Byte} (h : 0xC2 ≤ b0.val) (h' : b0.val < 0xE0)
    (h1 : cont b1 = true) :
    utf8EncodeChar ((b0.val - 0xC0) * 64 + (b1.val - 0x80)) = .ok [b0, b1] := by
  simp only [cont, Bool.and_eq_true, decide_eq_true_eq] at h1
  unfold utf8EncodeChar
  rw [if_neg (by omega), if_pos (by omega), byte_eq (a := b0) (by omega),
    byte_eq (a := b1) (by omega)]

theorem utf8EncodeChar_three {b0 b1 b2 : Byte} (h : 0xE0 ≤ b0.val) (h' : b0.val < 0xF0)
    (h1 : second3 b0 b1 = true) (h2 : cont b2 = true) :
    utf8EncodeChar ((b0.val - 0xE0) * 4096 + (b1.val - 0x80) * 64 + (b2.val - 0x80)) =
      .ok [b0, b1, b2] := by
  simp only [cont, Bool.and_eq_true, decide_eq_true_eq] at h2
  have hb1 : 0x80 ≤ b1.val ∧ b1.val < 0xC0 ∧ (b0.val = 0xE0 → 0xA0 ≤ b1.val) ∧
      (b0.val = 0xED → b1.val < 0xA0) := by
    unfold second3 at h1
    split at h1
    · simp only [Bool.and_eq_true, decide_eq_true_eq] at h1; omega
    split at h1
    · simp only [Bool.and_eq_true, decide_eq_true_eq] at h1; omega
    · simp only [cont, Bool.and_eq_true, decide_eq_true_eq] at h1; omega
  have hsc : scalar ((b0.val - 0xE0) * 4096 + (b1.val - 0x80) * 64 + (b2.val - 0x80)) = true := by
    rw [scalar_iff]; omega
  unfold utf8EncodeChar
  rw [hsc, if_neg (by omega), if_neg (by omega), if_neg (by decide), if_pos (by omega),
    byte_eq (a := b0) (by omega), byte_eq (a := b1) (by omega), byte_eq (a := b2) (by omega)]

theorem utf8EncodeChar_four {b0 b1 b2 b3 : Byte} (h : 0xF0 ≤ b0.val) (h' : b0.val < 0xF5)
    (h1 : second4 b0 b1 = true) (h2 : cont b2 = true) (h3 : cont b3 = true) :
    utf8EncodeChar ((b0.val - 0xF0) * 262144 + (b1.val - 0x80) * 4096 + (b2.val - 0x80) * 64
                    + (b3.val - 0x80)) = .ok [b0, b1, b2, b3] := by
  simp only [cont, Bool.and_eq_true, decide_eq_true_eq] at h2 h3
  have hb1 : 0x80 ≤ b1.val ∧ b1.val < 0xC0 ∧ (b0.val = 0xF0 → 0x90 ≤ b1.val) ∧
      (b0.val = 0xF4 → b1.val < 0x90) := by
    unfold second4 at h1
    split at h1
    · simp only [Bool.and_eq_true, decide_eq_true_eq] at h1; omega
    split at h1
    · simp only [Bool.and_eq_true, decide_eq_true_eq] at h1; omega
    · simp only [cont, Bool.and_eq_true, decide_eq_true_eq] at h1; omega
  have hsc : scalar ((b0.val - 0xF0) * 262144 + (b1.val - 0x80) * 4096 + (b2.val - 0x80) * 64
                    + (b3.val - 0x80)) = true := by
    rw [scalar_iff]; omega
  unfold utf8EncodeChar
  rw [hsc, if_neg (by omega), if_neg (by omega), if_neg (by decide), if_neg (by omega),
    byte_eq (a := b0) (by omega), byte_eq (a := b1) (by omega), byte_eq (a := b2) (by omega),
    byte_eq (a := b3) (by omega)]

/-- A segmentation that starts with a code point starts with its encoding. -/
theorem utf8Segs_some {b : Bytes} {c : Nat} {l : List (Option Nat)}
    (h : utf8Segs b = some c :: l) :
    ∃ bc rest, b = bc ++ rest ∧ bc ≠ [] ∧ utf8EncodeChar c = .ok bc ∧ utf8Segs rest = l := by
  cases b with
  | nil => rw [utf8Segs_nil] at h; cases h
  | cons b0 t =>
    rw [utf8Segs.eq_def] at h; dsimp only at h
    split at h
    · simp only [List.cons.injEq, Option.some.injEq] at h
      obtain ⟨rfl, h⟩ := h
      exact ⟨[b0], t, rfl, by simp, by simp [utf8EncodeChar, *], h⟩
    split at h
    · simp at h
    split at h
    · split at h
      · simp at h
      split at h
      · simp only [List.cons.injEq, Option.some.injEq] at h
        obtain ⟨rfl, h⟩ := h
        exact ⟨[b0, _], _, rfl, by simp, utf8EncodeChar_two (by omega) (by omega) (by assumption), h⟩
      · simp at h
    split at h
    · split at h
      · simp at h
      split at h
      · split at h
        · simp at h
        split at h
        · simp only [List.cons.injEq, Option.some.injEq] at h
          obtain ⟨rfl, h⟩ := h
          exact ⟨[b0, _, _], _, rfl, by simp,
            utf8EncodeChar_three (by omega) (by omega) (by assumption) (by assumption), h⟩
        · simp at h
      · simp at h
    split at h
    · split at h
      · simp at h
      split at h
      · split at h
        · simp at h
        split at h
        · split at h
          · simp at h
          split at h
          · simp only [List.cons.injEq, Option.some.injEq] at h
            obtain ⟨rfl, h⟩ := h
            exact ⟨[b0, _, _, _], _, rfl, by simp,
              utf8EncodeChar_four (by omega) (by omega) (by assumption) (by assumption)
                (by assumption), h⟩
          · simp at h
        · simp at h
      · simp at h
    · simp at h

theorem utf8Segs_eq_nil {b : Bytes} (h : utf8Segs b = []) : b = [] := by
  cases b with
  | nil => rfl
  | cons b0 t =>
    rw [utf8Segs.eq_def] at h; dsimp only at h
    repeat' split at h
    all_goals simp at h

theorem allSome_eq_some {l : List (Option Nat)} {s : PyStr} (h : allSome l = some s) :
    l = s.map some := by
  induction l generalizing s with
  | nil => simp [allSome] at h; subst h; rfl
  | cons a l ih =>
    cases a with
    | none => simp [allSome] at h
    | some a =>
      simp only [allSome, Option.map_eq_some_iff] at h
      obtain ⟨r, hr, rfl⟩ := h
      rw [ih hr]; rfl

/-- Strict decoding only accepts encodings. -/
theorem utf8Encode_decode {b : Bytes} {s : PyStr} (h : utf8Decode b = some s) :
    utf8Encode s = .ok b := by
  have h := allSome_eq_some h
  induction s generalizing b with
  | nil => rw [utf8Segs_eq_nil h]; rfl
  | cons c s ih =>
    obtain ⟨bc, rest, rfl, -, hc, hr⟩ := utf8Segs_some h
    simp [utf8Encode, hc, ih (b := rest) (by rw [utf8Decode, hr]; exact allSome_map_some s) hr]

/-- ASCII text is its own encoding. -/
theorem utf8Encode_ascii {s : PyStr} (h : ∀ c ∈ s, c < 128) : utf8Encode s = .ok (s.map byte) := by
  induction s with
  | nil => rfl
  | cons c s ih =>
    have hc := h c List.mem_cons_self
    simp [utf8Encode, ih (fun x hx => h x (List.mem_cons_of_mem _ hx)), utf8EncodeChar, hc]

theorem utf8Decode_ascii {b : Bytes} (h : ∀ c ∈ b, c.val < 128) :
    utf8Decode b = some (asciiStr b) := by
  apply utf8Decode_encode
  rw [utf8Encode_ascii]
  · simp [asciiStr, Function.comp_def]
  · intro c hc
    simp only [asciiStr, List.mem_map] at hc
    obtain ⟨a, ha, rfl⟩ := hc
    exact h a ha

theorem toStringB_ascii {b : Bytes} (h : ∀ c ∈ b, c.val < 128) : toStringB b = asciiStr b := by
  rw [toStringB, utf8Decode_ascii h]

theorem IsB64uChar.ascii {c : Byte} (h : IsB64uChar c) : c.val < 128 := by
  unfold IsB64uChar at h; omega

end Psion
