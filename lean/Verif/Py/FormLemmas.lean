import Verif.Spec.Form
import Verif.Py.UrlLemmas

/-!
# The format of parameters: lemmas
-/

namespace Psion

open Spec

/-! ## UTF-8 -/

theorem utf8_iff {c : Nat} {b : Bytes} : utf8EncodeChar c = .ok b ↔ Utf8 c b := by
  have hb : ∀ n, n < 256 → (byte n).val = n := by
    intro n h; simp [byte, Nat.mod_eq_of_lt h]
  constructor
  · intro h
    unfold utf8EncodeChar at h
    split at h
    · cases h; exact .one _ _ (by assumption) (hb _ (by omega))
    · split at h
      · cases h; exact .two _ _ _ (by omega) (by omega) (hb _ (by omega)) (hb _ (by omega))
      · split at h
        · cases h
        · rename_i hs
          have hs := (scalar_iff c).mp (by simpa using hs)
          split at h
          · cases h
            exact .three _ _ _ _ (by omega) (by omega) (by omega) (hb _ (by omega)) (hb _ (by omega)) (hb _ (by omega))
          · cases h
            exact .four _ _ _ _ _ (by omega) (by omega) (hb _ (by omega)) (hb _ (by omega)) (hb _ (by omega)) (hb _ (by omega))
  · intro h
    have he : ∀ (x : Byte) n, x.val = n → x = byte n := by
      intro x n h
      apply Fin.ext
      rw [hb n (by omega), h]
    have hsc : (c < 0xD800 ∨ (0xE000 ≤ c ∧ c < 0x110000)) → scalar c = true := (scalar_iff c).mpr
    unfold utf8EncodeChar
    cases h with
    | one b0 h1 h2 => rw [if_pos h1, he _ _ h2]
    | two b0 b1 h1 h2 h3 h4 => rw [if_neg (by omega), if_pos h2, he _ _ h3, he _ _ h4]
    | three b0 b1 b2 h1 h2 h3 h4 h5 h6 =>
      rw [if_neg (by omega), if_neg (by omega), if_neg (by simp [hsc (by omega)]), if_pos h2, he _ _ h4, he _ _ h5, he _ _ h6]
    | four b0 b1 b2 b3 h1 h2 h4 h5 h6 h7 =>
      rw [if_neg (by omega), if_neg (by omega), if_neg (by simp [hsc (by omega)]), if_neg (by omega), he _ _ h4, he _ _ h5,
        he _ _ h6, he _ _ h7]

theorem utf8Text_iff {s : PyStr} {b : Bytes} : utf8Encode s = .ok b ↔ Utf8Text s b := by
  induction s generalizing b with
  | nil =>
    constructor
    · intro h; cases h; exact .nil
    · intro h; cases h; rfl
  | cons c s ih =>
    unfold utf8Encode
    constructor
    · intro h
      split at h
      · cases h
      · rename_i b0 h0
        split at h
        · cases h
        · rename_i r hr
          cases h
          exact .cons _ _ _ _ (utf8_iff.mp h0) (ih.mp hr)
    · intro h
      cases h with
      | cons _ b0 _ r h0 hr => rw [utf8_iff.mpr h0, ih.mpr hr]

theorem utf8_ne_nil {c : Nat} {b : Bytes} (h : Utf8 c b) : b ≠ [] := by
  cases h <;> simp

/-- No character is the beginning of another one. -/
theorem utf8_prefix {c c' : Nat} {b e : Bytes} (h : Utf8 c b) (h' : Utf8 c' (b ++ e)) : e = [] ∧ c' = c := by
  cases h with
  | one b0 h1 h2 => 
    generalize hx : [b0] ++ e = x at h'
    cases h' <;> simp only [List.cons_append, List.nil_append, List.cons.injEq] at hx <;> obtain ⟨rfl, hx⟩ := hx
    · exact ⟨hx, by omega⟩
    all_goals omega
  | two b0 b1 h1 h2 h3 h4 =>
    generalize hx : [b0, b1] ++ e = x at h'
    cases h' <;> simp only [List.cons_append, List.nil_append, List.cons.injEq] at hx <;> obtain ⟨rfl, hx⟩ := hx
    · cases hx
    · obtain ⟨rfl, hx⟩ := hx
      exact ⟨hx, by omega⟩
    all_goals omega
  | three b0 b1 b2 h1 h2 h3 h4 h5 h6 =>
    generalize hx : [b0, b1, b2] ++ e = x at h'
    cases h' <;> simp only [List.cons_append, List.nil_append, List.cons.injEq] at hx <;> obtain ⟨rfl, hx⟩ := hx
    · cases hx
    · omega
    · obtain ⟨rfl, rfl, hx⟩ := hx
      exact ⟨hx, by omega⟩
    · omega
  | four b0 b1 b2 b3 h1 h2 h4 h5 h6 h7 =>
    generalize hx : [b0, b1, b2, b3] ++ e = x at h'
    cases h' <;> simp only [List.cons_append, List.nil_append, List.cons.injEq] at hx <;> obtain ⟨rfl, hx⟩ := hx
    · cases hx
    · omega
    · omega
    · obtain ⟨rfl, rfl, rfl, hx⟩ := hx
      exact ⟨hx, by omega⟩

/-! ## Ill-formed bytes -/

/-- Two beginnings of the same items. -/
theorem items_prefix {b b' : Bytes} {l l' : List Item} (h : b.map Item.byte ++ l = b'.map Item.byte ++ l') :
    (∃ e, b' = b ++ e ∧ l = e.map Item.byte ++ l') ∨ ∃ e, b = b' ++ e ∧ l' = e.map Item.byte ++ l := by
  induction b generalizing b' with
  | nil => exact Or.inl ⟨b', rfl, h⟩
  | cons x b ih =>
    cases b' with
    | nil => exact Or.inr ⟨x :: b, rfl, h.symm⟩
    | cons y b' =>
      simp only [List.map_cons, List.cons_append, List.cons.injEq, Item.byte.injEq] at h
      obtain ⟨rfl, h⟩ := h
      rcases ih h with ⟨e, rfl, h1⟩ | ⟨e, rfl, h1⟩
      · exact Or.inl ⟨e, rfl, h1⟩
      · exact Or.inr ⟨e, rfl, h1⟩

theorem illFormed_ne_nil {b : Bytes} {l : List Item} (h : IllFormed b l) : b ≠ [] := by
  rcases h with ⟨h, -⟩ | ⟨x, rfl, -⟩
  · exact h
  · simp

/-- Whether the first bytes are well formed is determined. -/
theorem good_not_bad {c : Nat} {b b' : Bytes} {l l' : List Item} (hg : Utf8 c b) (hb : IllFormed b' l')
    (h : b.map Item.byte ++ l = b'.map Item.byte ++ l') : False := by
  rcases items_prefix h with ⟨e, rfl, -⟩ | ⟨e, rfl, hl⟩
  · rcases hb with ⟨-, ⟨c', e', he, hu⟩, -⟩ | ⟨x, hx, hno⟩
    · rw [List.append_assoc] at hu
      have := (utf8_prefix hg hu).1
      simp [he] at this
    · cases b with
      | nil => exact utf8_ne_nil hg rfl
      | cons y b =>
        simp only [List.cons_append, List.cons.injEq, List.append_eq_nil_iff] at hx
        obtain ⟨rfl, rfl, -⟩ := hx
        exact hno c _ hg
  · cases e with
    | nil =>
      rw [List.append_nil] at hg
      rcases hb with ⟨-, ⟨c', e', he, hu⟩, -⟩ | ⟨x, rfl, hno⟩
      · exact he (utf8_prefix hg hu).1
      · exact hno c _ hg
    | cons x e =>
      rcases hb with ⟨-, -, hmax⟩ | ⟨y, rfl, hno⟩
      · exact hmax x _ hl c e hg
      · exact hno c _ hg

theorem bad_unique {b b' : Bytes} {l l' : List Item} (hb : IllFormed b l) (hb' : IllFormed b' l')
    (h : b.map Item.byte ++ l = b'.map Item.byte ++ l') : l' = l := by
  have key : ∀ {b : Bytes} {e : Bytes} {l l' : List Item}, IllFormed b l → IllFormed (b ++ e) l' →
      l = e.map Item.byte ++ l' → l' = l := by
    intro b e l l' h1 h2 hl
    cases e with
    | nil => exact hl.symm
    | cons x e =>
      exfalso
      rcases h2 with ⟨-, ⟨c', e', he, hu⟩, -⟩ | ⟨y, hy, hno⟩
      · rw [List.append_assoc] at hu
        rcases h1 with ⟨-, -, hmax⟩ | ⟨y, rfl, hno⟩
        · exact hmax x _ hl c' _ hu
        · exact hno c' _ hu
      · cases b with
        | nil => exact illFormed_ne_nil h1 rfl
        | cons z b => simp at hy
  rcases items_prefix h with ⟨e, rfl, hl⟩ | ⟨e, rfl, hl⟩
  · exact key hb hb' hl
  · exact (key hb' hb hl).symm

/-- The meaning of items is determined. -/
theorem decoded_unique {l : List Item} {t t' : PyStr} (h : Decoded l t) (h' : Decoded l t') : t' = t := by
  have byteHead : ∀ {b : Bytes} {r r' : List Item} {c : Nat}, b ≠ [] → b.map Item.byte ++ r ≠ Item.char c :: r' := by
    intro b r r' c hb
    cases b with
    | nil => exact absurd rfl hb
    | cons x b => simp
  have byteNil : ∀ {b : Bytes} {r : List Item}, b ≠ [] → b.map Item.byte ++ r ≠ [] := by
    intro b r hb
    cases b with
    | nil => exact absurd rfl hb
    | cons x b => simp
  induction h generalizing t' with
  | nil =>
    generalize hx : ([] : List Item) = x at h'
    cases h' with
    | nil => rfl
    | char => cases hx
    | good _ _ _ _ hu => exact absurd hx.symm (byteNil (utf8_ne_nil hu))
    | bad _ _ _ hb => exact absurd hx.symm (byteNil (illFormed_ne_nil hb))
  | char c l t _ ih =>
    generalize hx : Item.char c :: l = x at h'
    cases h' with
    | nil => cases hx
    | char _ _ _ h => cases hx; rw [ih h]
    | good _ _ _ _ hu => exact absurd hx.symm (byteHead (utf8_ne_nil hu))
    | bad _ _ _ hb => exact absurd hx.symm (byteHead (illFormed_ne_nil hb))
  | good c b l t hu _ ih =>
    generalize hx : b.map Item.byte ++ l = x at h'
    cases h' with
    | nil => exact absurd hx (byteNil (utf8_ne_nil hu))
    | char => exact absurd hx (byteHead (utf8_ne_nil hu))
    | good c' b' l' t' hu' h =>
      rcases items_prefix hx with ⟨e, rfl, hl⟩ | ⟨e, rfl, hl⟩
      · obtain ⟨rfl, rfl⟩ := utf8_prefix hu hu'
        rw [hl] at ih
        rw [ih h]
      · obtain ⟨rfl, rfl⟩ := utf8_prefix hu' hu
        rw [hl] at h
        rw [ih h]
    | bad _ _ _ hb => exact absurd hx (fun h => good_not_bad hu hb h)
  | bad b l t hb _ ih =>
    generalize hx : b.map Item.byte ++ l = x at h'
    cases h' with
    | nil => exact absurd hx (byteNil (illFormed_ne_nil hb))
    | char => exact absurd hx (byteHead (illFormed_ne_nil hb))
    | good _ _ _ _ hu => exact absurd hx.symm (fun h => good_not_bad hu hb h)
    | bad b' l' t' hb' h =>
      have := bad_unique hb hb' hx
      rw [this] at h
      rw [ih h]

theorem second3_iff {b0 b1 : Byte} : second3 b0 b1 = true ↔
    (b0.val = 0xE0 → 0xA0 ≤ b1.val) ∧ (b0.val = 0xED → b1.val < 0xA0) ∧ 0x80 ≤ b1.val ∧ b1.val < 0xC0 := by
  unfold second3 cont
  split
  · simp; omega
  · split
    · simp; omega
    · simp; omega

theorem second4_iff {b0 b1 : Byte} : second4 b0 b1 = true ↔
    (b0.val = 0xF0 → 0x90 ≤ b1.val) ∧ (b0.val = 0xF4 → b1.val < 0x90) ∧ 0x80 ≤ b1.val ∧ b1.val < 0xC0 := by
  unfold second4 cont
  split
  · simp; omega
  · split
    · simp; omega
    · simp; omega

theorem cont_iff {b : Byte} : cont b = true ↔ 0x80 ≤ b.val ∧ b.val < 0xC0 := by
  unfold cont
  simp

/-- Lead bytes of three bytes. -/
theorem utf8_three {b0 b1 b2 : Byte} (h : 0xE0 ≤ b0.val) (h' : b0.val < 0xF0) (h1 : second3 b0 b1 = true) (h2 : cont b2 = true) :
    Utf8 ((b0.val - 0xE0) * 4096 + (b1.val - 0x80) * 64 + (b2.val - 0x80)) [b0, b1, b2] := by
  rw [second3_iff] at h1
  rw [cont_iff] at h2
  refine .three _ _ _ _ ?_ ?_ ?_ ?_ ?_ ?_ <;> omega

theorem utf8_four {b0 b1 b2 b3 : Byte} (h : 0xF0 ≤ b0.val) (h' : b0.val < 0xF5) (h1 : second4 b0 b1 = true)
    (h2 : cont b2 = true) (h3 : cont b3 = true) :
    Utf8 ((b0.val - 0xF0) * 262144 + (b1.val - 0x80) * 4096 + (b2.val - 0x80) * 64 + (b3.val - 0x80)) [b0, b1, b2, b3] := by
  rw [second4_iff] at h1
  rw [cont_iff] at h2 h3
  refine .four _ _ _ _ _ ?_ ?_ ?_ ?_ ?_ ?_ <;> omega

theorem utf8_two {b0 b1 : Byte} (h : 0xC2 ≤ b0.val) (h' : b0.val < 0xE0) (h1 : cont b1 = true) :
    Utf8 ((b0.val - 0xC0) * 64 + (b1.val - 0x80)) [b0, b1] := by
  rw [cont_iff] at h1
  refine .two _ _ _ ?_ ?_ ?_ ?_ <;> omega

theorem cont_80 : cont (byte 0x80) = true := by decide

/-- The second byte of a beginning. -/
theorem utf8_second {c : Nat} {b0 b1 : Byte} {e : Bytes} (h : Utf8 c (b0 :: b1 :: e)) :
    (0xC2 ≤ b0.val ∧ b0.val < 0xE0 ∧ cont b1 = true) ∨ (0xE0 ≤ b0.val ∧ b0.val < 0xF0 ∧ second3 b0 b1 = true) ∨
      (0xF0 ≤ b0.val ∧ b0.val < 0xF5 ∧ second4 b0 b1 = true) := by
  rw [second3_iff, second4_iff, cont_iff]
  cases h <;> omega

theorem utf8_third {c : Nat} {b0 b1 b2 : Byte} {e : Bytes} (h : Utf8 c (b0 :: b1 :: b2 :: e)) : cont b2 = true := by
  rw [cont_iff]
  cases h <;> omega

theorem utf8_fourth {c : Nat} {b0 b1 b2 b3 : Byte} {e : Bytes} (h : Utf8 c (b0 :: b1 :: b2 :: b3 :: e)) : cont b3 = true := by
  rw [cont_iff]
  cases h
  omega

theorem begin2 {b0 b1 : Byte} (h : (0xE0 ≤ b0.val ∧ b0.val < 0xF0 ∧ second3 b0 b1 = true) ∨
    (0xF0 ≤ b0.val ∧ b0.val < 0xF5 ∧ second4 b0 b1 = true)) : ∃ c e, e ≠ [] ∧ Utf8 c ([b0, b1] ++ e) := by
  rcases h with ⟨h, h', h1⟩ | ⟨h, h', h1⟩
  · exact ⟨_, [byte 0x80], by simp, utf8_three h h' h1 cont_80⟩
  · exact ⟨_, [byte 0x80, byte 0x80], by simp, utf8_four h h' h1 cont_80 cont_80⟩

theorem begin1 {b0 : Byte} (h : 0xC2 ≤ b0.val) (h' : b0.val < 0xF5) : ∃ c e, e ≠ [] ∧ Utf8 c ([b0] ++ e) := by
  by_cases h1 : b0.val < 0xE0
  · exact ⟨_, [byte 0x80], by simp, utf8_two h h1 cont_80⟩
  · have hx : ∃ b1, (0xE0 ≤ b0.val ∧ b0.val < 0xF0 ∧ second3 b0 b1 = true) ∨
        (0xF0 ≤ b0.val ∧ b0.val < 0xF5 ∧ second4 b0 b1 = true) := by
      have v1 : (byte 0xA0).val = 0xA0 := by decide
      have v2 : (byte 0x80).val = 0x80 := by decide
      have v3 : (byte 0x90).val = 0x90 := by decide
      by_cases h2 : b0.val = 0xE0
      · exact ⟨byte 0xA0, by rw [second3_iff, second4_iff]; omega⟩
      · by_cases h3 : b0.val = 0xF0
        · exact ⟨byte 0x90, by rw [second3_iff, second4_iff]; omega⟩
        · refine ⟨byte 0x80, ?_⟩
          rw [second3_iff, second4_iff, v2]
          by_cases h4 : b0.val < 0xF0
          · exact Or.inl ⟨by omega, h4, fun h => absurd h h2, fun _ => by omega, by omega, by omega⟩
          · exact Or.inr ⟨by omega, h', fun h => absurd h h3, fun _ => by omega, by omega, by omega⟩
    obtain ⟨b1, hx⟩ := hx
    obtain ⟨c, e, -, he⟩ := begin2 hx
    exact ⟨c, b1 :: e, by simp, he⟩

/-- The first segment of some bytes. -/
theorem segs_cases (b0 : Byte) (t : Bytes) (rest : List Item) (hr : ∀ x r, rest ≠ .byte x :: r) :
    (∃ c b bs, b0 :: t = b ++ bs ∧ Utf8 c b ∧ utf8Segs (b0 :: t) = some c :: utf8Segs bs) ∨
      ∃ b bs, b0 :: t = b ++ bs ∧ IllFormed b (bs.map .byte ++ rest) ∧ utf8Segs (b0 :: t) = none :: utf8Segs bs := by
  have none1 : (∀ c e, ¬ Utf8 c (b0 :: e)) → IllFormed [b0] (t.map .byte ++ rest) := fun h => Or.inr ⟨b0, rfl, h⟩
  have end1 : 0xC2 ≤ b0.val → b0.val < 0xF5 → IllFormed [b0] (([] : Bytes).map .byte ++ rest) := by
    intro h h'
    exact Or.inl ⟨by simp, begin1 h h', fun x r hx => absurd hx (hr x r)⟩
  have next : ∀ {b : Bytes} {x : Byte} {r : Bytes}, b ≠ [] → (∃ c e, e ≠ [] ∧ Utf8 c (b ++ e)) → (∀ c e, ¬ Utf8 c (b ++ x :: e)) →
      IllFormed b ((x :: r).map .byte ++ rest) := by
    intro b x r hb h1 h2
    refine Or.inl ⟨hb, h1, ?_⟩
    intro y r' hy
    simp only [List.map_cons, List.cons_append, List.cons.injEq, Item.byte.injEq] at hy
    rw [← hy.1]
    exact h2
  have stop : ∀ {b : Bytes}, b ≠ [] → (∃ c e, e ≠ [] ∧ Utf8 c (b ++ e)) → IllFormed b (([] : Bytes).map .byte ++ rest) :=
    fun hb h1 => Or.inl ⟨hb, h1, fun x r hx => absurd hx (hr x r)⟩
  by_cases k1 : b0.val < 0x80
  · exact Or.inl ⟨b0.val, [b0], t, rfl, .one _ _ k1 rfl, segs_step1 b0 t k1⟩
  by_cases k2 : b0.val < 0xC2
  · refine Or.inr ⟨[b0], t, rfl, none1 ?_, ?_⟩
    · intro c e h
      cases h <;> omega
    · rw [utf8Segs.eq_def]
      simp only [k1, k2, if_true, if_false]
  by_cases k3 : b0.val < 0xE0
  · cases t with
    | nil =>
      refine Or.inr ⟨[b0], [], rfl, stop (by simp) (begin1 (by omega) (by omega)), ?_⟩
      rw [utf8Segs.eq_def, utf8Segs_nil]
      simp only [k1, k2, k3, if_true, if_false]
    | cons b1 t1 =>
      by_cases k4 : cont b1 = true
      · exact Or.inl ⟨_, [b0, b1], t1, rfl, utf8_two (by omega) k3 k4, segs_step2 b0 b1 t1 (by omega) k3 k4⟩
      · refine Or.inr ⟨[b0], b1 :: t1, rfl, next (by simp) (begin1 (by omega) (by omega)) ?_, ?_⟩
        · intro c e h
          rcases utf8_second h with ⟨-, -, h⟩ | ⟨h, -⟩ | ⟨h, -⟩
          · exact k4 h
          · omega
          · omega
        · rw [utf8Segs.eq_def]
          simp only [k1, k2, k3, k4, if_true, if_false]
          rfl
  by_cases k4 : b0.val < 0xF0
  · cases t with
    | nil =>
      refine Or.inr ⟨[b0], [], rfl, stop (by simp) (begin1 (by omega) (by omega)), ?_⟩
      rw [utf8Segs.eq_def, utf8Segs_nil]
      simp only [k1, k2, k3, k4, if_true, if_false]
    | cons b1 t1 =>
      by_cases k5 : second3 b0 b1 = true
      · have hb2 := begin2 (b0 := b0) (b1 := b1) (Or.inl ⟨by omega, k4, k5⟩)
        cases t1 with
        | nil =>
          refine Or.inr ⟨[b0, b1], [], rfl, stop (by simp) hb2, ?_⟩
          rw [utf8Segs.eq_def, utf8Segs_nil]
          simp only [k1, k2, k3, k4, k5, if_true, if_false]
        | cons b2 t2 =>
          by_cases k6 : cont b2 = true
          · exact Or.inl ⟨_, [b0, b1, b2], t2, rfl, utf8_three (by omega) k4 k5 k6, segs_step3 b0 b1 b2 t2 (by omega) k4 k5 k6⟩
          · refine Or.inr ⟨[b0, b1], b2 :: t2, rfl, next (by simp) hb2 (fun c e h => k6 (utf8_third h)), ?_⟩
            rw [utf8Segs.eq_def]
            simp only [k1, k2, k3, k4, k5, k6, if_true, if_false]
            rfl
      · refine Or.inr ⟨[b0], b1 :: t1, rfl, next (by simp) (begin1 (by omega) (by omega)) ?_, ?_⟩
        · intro c e h
          rcases utf8_second h with ⟨_, h, -⟩ | ⟨-, -, h⟩ | ⟨h, -⟩
          · omega
          · exact k5 h
          · omega
        · rw [utf8Segs.eq_def]
          simp only [k1, k2, k3, k4, k5, if_true, if_false]
          rfl
  by_cases k5 : b0.val < 0xF5
  · cases t with
    | nil =>
      refine Or.inr ⟨[b0], [], rfl, stop (by simp) (begin1 (by omega) (by omega)), ?_⟩
      rw [utf8Segs.eq_def, utf8Segs_nil]
      simp only [k1, k2, k3, k4, k5, if_true, if_false]
    | cons b1 t1 =>
      by_cases k6 : second4 b0 b1 = true
      · have hb2 := begin2 (b0 := b0) (b1 := b1) (Or.inr ⟨by omega, k5, k6⟩)
        cases t1 with
        | nil =>
          refine Or.inr ⟨[b0, b1], [], rfl, stop (by simp) hb2, ?_⟩
          rw [utf8Segs.eq_def, utf8Segs_nil]
          simp only [k1, k2, k3, k4, k5, k6, if_true, if_false]
        | cons b2 t2 =>
          by_cases k7 : cont b2 = true
          · have hb3 : ∃ c e, e ≠ [] ∧ Utf8 c ([b0, b1, b2] ++ e) :=
              ⟨_, [byte 0x80], by simp, utf8_four (by omega) k5 k6 k7 cont_80⟩
            cases t2 with
            | nil =>
              refine Or.inr ⟨[b0, b1, b2], [], rfl, stop (by simp) hb3, ?_⟩
              rw [utf8Segs.eq_def, utf8Segs_nil]
              simp only [k1, k2, k3, k4, k5, k6, k7, if_true, if_false]
            | cons b3 t3 =>
              by_cases k8 : cont b3 = true
              · exact Or.inl ⟨_, [b0, b1, b2, b3], t3, rfl, utf8_four (by omega) k5 k6 k7 k8,
                  segs_step4 b0 b1 b2 b3 t3 (by omega) k5 k6 k7 k8⟩
              · refine Or.inr ⟨[b0, b1, b2], b3 :: t3, rfl, next (by simp) hb3 (fun c e h => k8 (utf8_fourth h)), ?_⟩
                rw [utf8Segs.eq_def]
                simp only [k1, k2, k3, k4, k5, k6, k7, k8, if_true, if_false]
                rfl
          · refine Or.inr ⟨[b0, b1], b2 :: t2, rfl, next (by simp) hb2 (fun c e h => k7 (utf8_third h)), ?_⟩
            rw [utf8Segs.eq_def]
            simp only [k1, k2, k3, k4, k5, k6, k7, if_true, if_false]
            rfl
      · refine Or.inr ⟨[b0], b1 :: t1, rfl, next (by simp) (begin1 (by omega) (by omega)) ?_, ?_⟩
        · intro c e h
          rcases utf8_second h with ⟨_, h, -⟩ | ⟨-, h, -⟩ | ⟨-, -, h⟩
          · omega
          · omega
          · exact k6 h
        · rw [utf8Segs.eq_def]
          simp only [k1, k2, k3, k4, k5, k6, if_true, if_false]
          rfl
  · refine Or.inr ⟨[b0], t, rfl, none1 ?_, ?_⟩
    · intro c e h
      cases h <;> omega
    · rw [utf8Segs.eq_def]
      simp only [k1, k2, k3, k4, k5, if_false]

/-- Decoding with replacement follows the specification. -/
theorem decoded_replace (rest : List Item) (t : PyStr) (hr : ∀ x r, rest ≠ .byte x :: r) (h : Decoded rest t) :
    ∀ (n : Nat) (bs : Bytes), bs.length ≤ n → Decoded (bs.map .byte ++ rest) (utf8DecodeReplace bs ++ t) := by
  intro n
  induction n with
  | zero =>
    intro bs hbs
    cases bs with
    | nil => simpa [utf8DecodeReplace, utf8Segs_nil] using h
    | cons => simp at hbs
  | succ n ih =>
    intro bs hbs
    cases bs with
    | nil => simpa [utf8DecodeReplace, utf8Segs_nil] using h
    | cons b0 bs =>
      unfold utf8DecodeReplace
      rcases segs_cases b0 bs rest hr with ⟨c, b, bs', he, hu, hs⟩ | ⟨b, bs', he, hu, hs⟩
      · rw [hs, he, List.map_append, List.append_assoc]
        refine .good c b _ _ hu (ih bs' ?_)
        have := congrArg List.length he
        have h0 := List.length_pos_iff.mpr (utf8_ne_nil hu)
        rw [List.length_append] at this
        omega
      · rw [hs, he, List.map_append, List.append_assoc]
        refine .bad b _ _ hu (ih bs' ?_)
        have := congrArg List.length he
        have h0 := List.length_pos_iff.mpr (illFormed_ne_nil hu)
        rw [List.length_append] at this
        omega

/-! ## Percent-encoding -/

theorem pctDigit_iff {c v : Nat} : hexVal c = some v ↔ PctDigit c v := by
  unfold hexVal PctDigit
  split
  · simp; omega
  · split
    · simp; omega
    · split
      · simp; omega
      · simp; omega

/-- `+` stands for a space. -/
def plusSpace (c : Nat) : Nat := if c = 43 then 32 else c

theorem hexVal_plusSpace (c : Nat) : hexVal (plusSpace c) = hexVal c := by
  unfold plusSpace
  split
  · rename_i h; rw [h]; decide
  · rfl

theorem pctDigit_lt {c v : Nat} (h : PctDigit c v) : c < 128 := by
  unfold PctDigit at h; omega

theorem items_cons_plain {c : Nat} {s : PyStr} {l : List Item} (hc : c < 128)
    (h : c = 37 → ∀ a b t x y, s = a :: b :: t → PctDigit a x → ¬ PctDigit b y) (hi : Items s l) :
    Items (c :: s) (.byte (byte (plusSpace c)) :: l) := by
  unfold plusSpace
  split
  · rename_i h; rw [h]; exact .plus _ _ hi
  · rename_i h'; exact .plain _ _ _ hc h' h hi

/-- The items of a run of ASCII characters. -/
theorem items_run (rest : PyStr) (l : List Item) (hrest : ∀ a s, rest = a :: s → 128 ≤ a) (hi : Items rest l) :
    ∀ (n : Nat) (p : PyStr), p.length ≤ n → (∀ c ∈ p, c < 128) →
      Items (p ++ rest) ((unquoteBytes (p.map plusSpace)).map .byte ++ l) := by
  intro n
  induction n with
  | zero =>
    intro p hn _
    cases p with
    | nil => simpa [unquoteBytes_nil] using hi
    | cons => simp at hn
  | succ n ih =>
    intro p hn hp
    cases p with
    | nil => simpa [unquoteBytes_nil] using hi
    | cons c p =>
      have hc := hp c List.mem_cons_self
      have hp' : ∀ c ∈ p, c < 128 := fun c h => hp c (List.mem_cons_of_mem _ h)
      have hn' : p.length ≤ n := by simpa using hn
      by_cases h37 : c = 37
      · subst h37
        have hpl : plusSpace 37 = 37 := by decide
        cases p with
        | nil =>
          have : unquoteBytes [37] = [byte 37] := by rw [unquoteBytes.eq_def]; simp
          rw [List.map_cons, hpl, List.map_nil, this]
          refine .plain 37 _ _ (by omega) (by omega) (fun _ a b t x y hs ha => ?_) hi
          have := hrest a _ hs
          have := pctDigit_lt ha
          omega
        | cons a p =>
          cases p with
          | nil =>
            have h1 : unquoteBytes [37, plusSpace a] = [byte 37, byte (plusSpace a)] := by rw [unquoteBytes.eq_def]; simp
            rw [List.map_cons, hpl, List.map_cons, List.map_nil, h1]
            refine .plain 37 _ _ (by omega) (by omega) (fun _ a' b t x y hs _ hb => ?_) ?_
            · change a :: rest = a' :: b :: t at hs
              have := hrest b t (List.cons.inj hs).2
              have := pctDigit_lt hb
              omega
            · refine items_cons_plain (hp' a (by simp)) (fun _ a' b t x y hs ha => ?_) hi
              have := hrest a' _ hs
              have := pctDigit_lt ha
              omega
          | cons b p =>
            cases hx : hexVal a with
            | some x =>
              cases hy : hexVal b with
              | some y =>
                rw [List.map_cons, hpl, List.map_cons, List.map_cons,
                  unquoteBytes_hex (by rw [hexVal_plusSpace, hx]) (by rw [hexVal_plusSpace, hy])]
                refine .escape a b x y _ _ (pctDigit_iff.mp hx) (pctDigit_iff.mp hy) (ih p ?_ ?_)
                · simp at hn'; omega
                · intro c h; exact hp' c (by simp [h])
              | none =>
                have h1 : unquoteBytes (37 :: plusSpace a :: plusSpace b :: p.map plusSpace) =
                    byte 37 :: unquoteBytes (plusSpace a :: plusSpace b :: p.map plusSpace) := by
                  rw [unquoteBytes.eq_def]
                  simp [hexVal_plusSpace, hx, hy]
                rw [List.map_cons, hpl, List.map_cons, List.map_cons, h1]
                refine .plain 37 _ _ (by omega) (by omega) (fun _ a' b' t x y hs _ hb => ?_) (ih (a :: b :: p) hn' hp')
                change a :: b :: (p ++ rest) = a' :: b' :: t at hs
                rw [← (List.cons.inj (List.cons.inj hs).2).1, ← pctDigit_iff, hy] at hb
                cases hb
            | none =>
              have h1 : unquoteBytes (37 :: plusSpace a :: plusSpace b :: p.map plusSpace) =
                  byte 37 :: unquoteBytes (plusSpace a :: plusSpace b :: p.map plusSpace) := by
                rw [unquoteBytes.eq_def]
                simp [hexVal_plusSpace, hx]
              rw [List.map_cons, hpl, List.map_cons, List.map_cons, h1]
              refine .plain 37 _ _ (by omega) (by omega) (fun _ a' b' t x y hs ha _ => ?_) (ih (a :: b :: p) hn' hp')
              change a :: b :: (p ++ rest) = a' :: b' :: t at hs
              rw [← (List.cons.inj hs).1, ← pctDigit_iff, hx] at ha
              cases ha
      · have hne : plusSpace c ≠ 37 := by unfold plusSpace; split <;> omega
        rw [List.map_cons, unquoteBytes_plain hne]
        exact items_cons_plain hc (fun h => absurd h h37) (ih p hn' hp')

theorem items_unique {s : PyStr} {l l' : List Item} (h : Items s l) (h' : Items s l') : l' = l := by
  induction h generalizing l' with
  | nil => cases h'; rfl
  | plus s l _ ih =>
    cases h' with
    | plus _ _ h => rw [ih h]
    | plain _ _ _ _ h => exact absurd rfl h
    | other _ _ _ h => omega
  | escape a b x y s l ha hb _ ih =>
    cases h' with
    | escape _ _ x' y' _ _ ha' hb' h =>
      rw [← pctDigit_iff] at ha hb ha' hb'
      rw [ha] at ha'; rw [hb] at hb'
      cases ha'; cases hb'
      rw [ih h]
    | plain _ _ _ _ _ h => exact absurd hb (h rfl a b s x y rfl ha)
    | other _ _ _ h => omega
  | plain c s l hc hne hno _ ih =>
    cases h' with
    | plus => exact absurd rfl hne
    | escape _ _ x' y' _ _ ha' hb' h => exact absurd hb' (hno rfl _ _ _ _ _ rfl ha')
    | plain _ _ _ _ _ _ h => rw [ih h]
    | other _ _ _ h => omega
  | other c s l hc _ ih =>
    cases h' with
    | plus => omega
    | escape => omega
    | plain _ _ _ h => omega
    | other _ _ _ _ h => rw [ih h]

theorem unquoteLoop_run (c : Nat) (s : PyStr) (hc : 128 ≤ c) : ∀ (p run : PyStr), (∀ c ∈ p, c < 128) →
    unquoteLoop run (p ++ c :: s) = utf8DecodeReplace (unquoteBytes (run ++ p)) ++ c :: unquoteLoop [] s := by
  intro p
  induction p with
  | nil =>
    intro run _
    rw [List.nil_append, unquoteLoop, if_neg (by omega), List.append_nil]
  | cons x p ih =>
    intro run hp
    rw [List.cons_append, unquoteLoop, if_pos (hp x List.mem_cons_self), ih _ (fun c h => hp c (List.mem_cons_of_mem _ h))]
    simp

theorem takeWhile_mem {α : Type} {q : α → Bool} {l : List α} {c : α} (h : c ∈ l.takeWhile q) : q c = true := by
  induction l with
  | nil => cases h
  | cons x l ih =>
    rw [List.takeWhile_cons] at h
    split at h
    · rename_i hx
      rcases List.mem_cons.mp h with rfl | h
      · exact hx
      · exact ih h
    · cases h

theorem written_unquotePlus : ∀ (n : Nat) (s : PyStr), s.length ≤ n → Written s (unquotePlus s) := by
  intro n
  induction n with
  | zero =>
    intro s hn
    cases s with
    | nil =>
      have : unquotePlus [] = [] := by decide +kernel
      rw [this]
      exact ⟨[], .nil, .nil⟩
    | cons => simp at hn
  | succ n ih =>
    intro s hn
    have hsplit := List.takeWhile_append_dropWhile (p := fun c => decide (c < 128)) (l := s)
    have hp : ∀ c ∈ s.takeWhile (fun c => decide (c < 128)), c < 128 := by
      intro c hc
      simpa using takeWhile_mem hc
    have hpl : ∀ c ∈ (s.takeWhile (fun c => decide (c < 128))).map plusSpace, c < 128 := by
      intro c hc
      obtain ⟨d, hd, rfl⟩ := List.mem_map.mp hc
      have := hp d hd
      unfold plusSpace
      split <;> omega
    have hmap : ∀ x : PyStr, (x.map (fun c => if c = 43 then 32 else c)) = x.map plusSpace := fun _ => rfl
    generalize s.takeWhile (fun c => decide (c < 128)) = p at *
    cases hr : s.dropWhile (fun c => decide (c < 128)) with
    | nil =>
      rw [hr, List.append_nil] at hsplit
      subst hsplit
      refine ⟨_, items_run [] [] nofun .nil _ p (Nat.le_refl _) hp |> fun h => (by simpa using h), ?_⟩
      unfold unquotePlus unquote
      rw [hmap, unquoteLoop_ascii _ hpl]
      have := decoded_replace [] [] (by simp) .nil _ (unquoteBytes (p.map plusSpace)) (Nat.le_refl _)
      simpa using this
    | cons c r =>
      have hc : 128 ≤ c := by
        have := List.head?_dropWhile_not (p := fun c => decide (c < 128)) (l := s)
        rw [hr] at this
        simpa using this
      rw [hr] at hsplit
      subst hsplit
      obtain ⟨l, h1, h2⟩ := ih r (by simp at hn; omega)
      refine ⟨_, items_run (c :: r) (.char c :: l) (by intro a s h; cases h; exact hc) (.other c r l hc h1) _ p (Nat.le_refl _) hp, ?_⟩
      have hpc : plusSpace c = c := by unfold plusSpace; rw [if_neg (by omega)]
      unfold unquotePlus unquote
      rw [hmap, List.map_append, List.map_cons, hpc, unquoteLoop_run c _ hc _ _ hpl, List.nil_append]
      exact decoded_replace _ _ (by simp) (.char c l _ h2) _ _ (Nat.le_refl _)

/-- `unquote_plus` reads exactly what is written. -/
theorem written_iff {s t : PyStr} : Written s t ↔ unquotePlus s = t := by
  constructor
  · rintro ⟨l, h1, h2⟩
    obtain ⟨l', h3, h4⟩ := written_unquotePlus _ s (Nat.le_refl _)
    rw [items_unique h1 h3] at h4
    exact decoded_unique h2 h4
  · rintro rfl
    exact written_unquotePlus _ s (Nat.le_refl _)

end Psion
