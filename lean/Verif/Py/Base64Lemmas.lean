import Verif.Py.Base64

/-! Helper lemmas about the base64 codec. -/

namespace Psion

theorem byte_of_lt {n : Nat} (h : n < 256) : (byte n).val = n := by simp; omega

/-- The url-safe character for a 6 bit value. -/
def b64uChar (n : Nat) : Byte := toUrlsafe (b64Char n)

theorem b64uChar_fold (n : Nat) : toUrlsafe (b64Char n) = b64uChar n := rfl

theorem b64uChar_val {n : Nat} (h : n < 64) :
    (b64uChar n).val = if n < 26 then 65 + n else if n < 52 then 97 + (n - 26)
      else if n < 62 then 48 + (n - 52) else if n = 62 then 45 else 95 := by
  unfold b64uChar b64Char toUrlsafe
  split
  · rw [byte_of_lt (by omega)]; split <;> (try split) <;> (try simp) <;> omega
  split
  · rw [byte_of_lt (by omega)]; split <;> (try split) <;> (try simp) <;> omega
  split
  · rw [byte_of_lt (by omega)]; split <;> (try split) <;> (try simp) <;> omega
  split <;> rfl

theorem b64uChar_ne_pad {n : Nat} (h : n < 64) : (b64uChar n).val ≠ 61 := by
  rw [b64uChar_val h]; split <;> (try split) <;> (try split) <;> (try split) <;> omega

theorem ofUrlsafe_b64uChar {n : Nat} (h : n < 64) : ofUrlsafe (b64uChar n) = b64Char n := by
  have hv := b64uChar_val h
  unfold ofUrlsafe
  unfold b64Char
  split at hv
  · rw [if_neg (by omega), if_neg (by omega), if_pos (by assumption)]
    apply Fin.ext; rw [hv, byte_of_lt (by omega)]
  split at hv
  · rw [if_neg (by omega), if_neg (by omega), if_neg (by assumption), if_pos (by assumption)]
    apply Fin.ext; rw [hv, byte_of_lt (by omega)]
  split at hv
  · rw [if_neg (by omega), if_neg (by omega), if_neg (by assumption), if_neg (by assumption),
      if_pos (by assumption)]
    apply Fin.ext; rw [hv, byte_of_lt (by omega)]
  split at hv
  · rw [if_pos hv, if_neg (by assumption), if_neg (by assumption),
      if_neg (by assumption), if_pos (by assumption)]
  · rw [if_neg (by omega), if_pos hv, if_neg (by assumption), if_neg (by assumption),
      if_neg (by assumption), if_neg (by assumption)]

theorem b64Char_val {n : Nat} (h : n < 64) :
    (b64Char n).val = if n < 26 then 65 + n else if n < 52 then 97 + (n - 26)
      else if n < 62 then 48 + (n - 52) else if n = 62 then 43 else 47 := by
  unfold b64Char
  split
  · rw [byte_of_lt (by omega)]
  split
  · rw [byte_of_lt (by omega)]
  split
  · rw [byte_of_lt (by omega)]
  split <;> rfl

theorem b64Char_ne_pad {n : Nat} (h : n < 64) : (b64Char n).val ≠ 61 := by
  rw [b64Char_val h]; split <;> (try split) <;> (try split) <;> (try split) <;> omega

theorem b64Val_b64Char {n : Nat} (h : n < 64) : b64Val (b64Char n) = some n := by
  have hv := b64Char_val h
  unfold b64Val
  generalize b64Char n = c at hv
  repeat' split at hv
  all_goals
    repeat' split
    all_goals (try simp only [Option.some.injEq]) <;> (try omega)

theorem ofUrlsafe_pad : ofUrlsafe 61 = 61 := by decide

theorem byte_lt (a : Byte) : a.val < 256 := a.isLt

/-- Consuming one alphabet character of the standard alphabet. -/
theorem a2bLoop_char (quad left pads n : Nat) (h : n < 64) (cs : Bytes) :
    a2bLoop quad left pads (b64Char n :: cs) =
      if quad = 0 then a2bLoop 1 n 0 cs
      else if quad = 1 then (a2bLoop 2 (n % 16) 0 cs).map (byte (left * 4 + n / 16) :: ·)
      else if quad = 2 then (a2bLoop 3 (n % 4) 0 cs).map (byte (left * 16 + n / 4) :: ·)
      else (a2bLoop 0 0 0 cs).map (byte (left * 64 + n) :: ·) := by
  conv => lhs; unfold a2bLoop
  rw [if_neg (b64Char_ne_pad h), b64Val_b64Char h]

theorem byte_eq {n : Nat} {a : Byte} (h : n = a.val) : byte n = a := by
  rw [h]; simp

@[simp] theorem except_map_ok {ε α β : Type} (f : α → β) (a : α) :
    Except.map f (Except.ok a : Except ε α) = Except.ok (f a) := rfl

@[simp] theorem except_map_error {ε α β : Type} (f : α → β) (e : ε) :
    Except.map f (Except.error e : Except ε α) = Except.error e := rfl

theorem except_map_map {ε α β γ : Type} (f : α → β) (g : β → γ) (x : Except ε α) :
    Except.map g (Except.map f x) = Except.map (g ∘ f) x := by
  cases x <;> rfl

/-- A full quad decodes to its three bytes. -/
theorem a2bLoop_quad (a b c : Byte) (cs : Bytes) (p l : Nat) :
    a2bLoop 0 l p (b64Char (a.val / 4) :: b64Char (a.val % 4 * 16 + b.val / 16) ::
      b64Char (b.val % 16 * 4 + c.val / 64) :: b64Char (c.val % 64) :: cs) =
    (a2bLoop 0 0 0 cs).map (fun r => a :: b :: c :: r) := by
  have ha := a.isLt; have hb := b.isLt; have hc := c.isLt
  rw [a2bLoop_char _ _ _ _ (by omega), if_pos rfl, a2bLoop_char _ _ _ _ (by omega),
    if_neg (by decide), if_pos rfl, a2bLoop_char _ _ _ _ (by omega), if_neg (by decide),
    if_neg (by decide), if_pos rfl, a2bLoop_char _ _ _ _ (by omega), if_neg (by decide),
    if_neg (by decide), if_neg (by decide), except_map_map, except_map_map]
  congr 1
  funext r
  simp only [Function.comp]
  rw [byte_eq (a := a) (by omega), byte_eq (a := b) (by omega), byte_eq (a := c) (by omega)]

/-- Decoding the padded encoding returns the original bytes. -/
theorem a2b_b2a (d : Bytes) : ∀ l p, a2bLoop 0 l p (b2a d) = .ok d := by
  induction d using b2a.induct with
  | case1 => intro l p; rfl
  | case2 a =>
    intro l p
    have ha := a.isLt
    rw [b2a, a2bLoop_char _ _ _ _ (by omega), if_pos rfl, a2bLoop_char _ _ _ _ (by omega),
      if_neg (by decide), if_pos rfl]
    simp only [a2bLoop]
    exact congrArg (fun x => Except.ok [x]) (byte_eq (by omega))
  | case3 a b =>
    intro l p
    have ha := a.isLt; have hb := b.isLt
    rw [b2a, a2bLoop_char _ _ _ _ (by omega), if_pos rfl, a2bLoop_char _ _ _ _ (by omega),
      if_neg (by decide), if_pos rfl, a2bLoop_char _ _ _ _ (by omega), if_neg (by decide),
      if_neg (by decide), if_pos rfl]
    simp only [a2bLoop]
    rw [byte_eq (a := a) (by omega), byte_eq (a := b) (by omega)]; rfl
  | case4 a b c rest ih =>
    intro l p
    rw [b2a, a2bLoop_quad, ih]; rfl

/-- The unpadded url-safe encoding, written directly. -/
def b64uRaw : Bytes → Bytes
  | [] => []
  | [a] => [b64uChar (a.val / 4), b64uChar (a.val % 4 * 16)]
  | [a, b] =>
    [b64uChar (a.val / 4), b64uChar (a.val % 4 * 16 + b.val / 16), b64uChar (b.val % 16 * 4)]
  | a :: b :: c :: rest =>
    b64uChar (a.val / 4) :: b64uChar (a.val % 4 * 16 + b.val / 16) ::
      b64uChar (b.val % 16 * 4 + c.val / 64) :: b64uChar (c.val % 64) :: b64uRaw rest

theorem rstripPad_cons {d : Bytes} {c : Byte} (h : c.val ≠ 61) :
    rstripPad (c :: d) = c :: rstripPad d := by
  rw [rstripPad, if_neg (fun hh => h hh.1)]

theorem toUrlsafe_pad : toUrlsafe 61 = 61 := by decide

theorem b64urlEncode_eq (d : Bytes) : b64urlEncode d = b64uRaw d := by
  unfold b64urlEncode
  induction d using b2a.induct with
  | case1 => rfl
  | case2 a =>
    have ha := a.isLt
    simp only [b2a, List.map, toUrlsafe_pad, b64uRaw, b64uChar_fold]
    rw [rstripPad_cons (b64uChar_ne_pad (by omega)), rstripPad_cons (b64uChar_ne_pad (by omega))]
    rfl
  | case3 a b =>
    have ha := a.isLt; have hb := b.isLt
    simp only [b2a, List.map, toUrlsafe_pad, b64uRaw, b64uChar_fold]
    rw [rstripPad_cons (b64uChar_ne_pad (by omega)), rstripPad_cons (b64uChar_ne_pad (by omega)),
      rstripPad_cons (b64uChar_ne_pad (by omega))]
    rfl
  | case4 a b c rest ih =>
    have ha := a.isLt; have hb := b.isLt; have hc := c.isLt
    simp only [b2a, List.map, b64uRaw, b64uChar_fold]
    rw [rstripPad_cons (b64uChar_ne_pad (by omega)), rstripPad_cons (b64uChar_ne_pad (by omega)),
      rstripPad_cons (b64uChar_ne_pad (by omega)), rstripPad_cons (b64uChar_ne_pad (by omega)), ih]

/-- With the repaired padding the raw encoding becomes the padded one. -/
theorem a2bLoop_raw (d : Bytes) : ∀ l p k, (b64uRaw d).length % 4 ≤ k →
    a2bLoop 0 l p ((b64uRaw d).map ofUrlsafe ++ List.replicate k 61) = .ok d := by
  induction d using b2a.induct with
  | case1 =>
    intro l p k _
    simp only [b64uRaw, List.map_nil, List.nil_append]
    induction k generalizing l p with
    | zero => rfl
    | succ k ih => rw [List.replicate_succ]; unfold a2bLoop; simpa using ih l p (by simp [b64uRaw])
  | case2 a =>
    intro l p k hk
    have ha := a.isLt
    simp only [b64uRaw, List.length] at hk
    obtain ⟨k, rfl⟩ : ∃ j, k = j + 2 := ⟨k - 2, by omega⟩
    simp only [b64uRaw, List.map, List.cons_append, List.nil_append]
    rw [ofUrlsafe_b64uChar (by omega), ofUrlsafe_b64uChar (by omega),
      a2bLoop_char _ _ _ _ (by omega), if_pos rfl, a2bLoop_char _ _ _ _ (by omega),
      if_neg (by decide), if_pos rfl]
    rw [byte_eq (a := a) (by omega)]
    simp [a2bLoop, List.replicate_succ]
  | case3 a b =>
    intro l p k hk
    have ha := a.isLt; have hb := b.isLt
    simp only [b64uRaw, List.length] at hk
    obtain ⟨k, rfl⟩ : ∃ j, k = j + 1 := ⟨k - 1, by omega⟩
    simp only [b64uRaw, List.map, List.cons_append, List.nil_append]
    rw [ofUrlsafe_b64uChar (by omega), ofUrlsafe_b64uChar (by omega), ofUrlsafe_b64uChar (by omega),
      a2bLoop_char _ _ _ _ (by omega), if_pos rfl, a2bLoop_char _ _ _ _ (by omega),
      if_neg (by decide), if_pos rfl, a2bLoop_char _ _ _ _ (by omega), if_neg (by decide),
      if_neg (by decide), if_pos rfl]
    rw [byte_eq (a := a) (by omega), byte_eq (a := b) (by omega)]
    simp [a2bLoop, List.replicate_succ]
  | case4 a b c rest ih =>
    intro l p k hk
    have ha := a.isLt; have hb := b.isLt; have hc := c.isLt
    simp only [b64uRaw, List.length] at hk
    simp only [b64uRaw, List.map, List.cons_append]
    rw [ofUrlsafe_b64uChar (by omega), ofUrlsafe_b64uChar (by omega), ofUrlsafe_b64uChar (by omega),
      ofUrlsafe_b64uChar (by omega), a2bLoop_quad, ih 0 0 k (by omega)]
    rfl

theorem b64_roundtrip (d : Bytes) : b64urlDecode (b64urlEncode d) = .ok d := by
  unfold b64urlDecode a2b
  rw [b64urlEncode_eq, List.map_append, List.map_replicate, ofUrlsafe_pad]
  exact a2bLoop_raw d 0 0 _ (Nat.le_refl _)

theorem b64urlEncode_injective {d e : Bytes} (h : b64urlEncode d = b64urlEncode e) : d = e := by
  have h1 := b64_roundtrip d
  rw [h, b64_roundtrip e] at h1
  exact (Except.ok.inj h1).symm

/-- Characters of the url-safe alphabet `A-Z a-z 0-9 - _`. -/
def IsB64uChar (c : Byte) : Prop :=
  (65 ≤ c.val ∧ c.val ≤ 90) ∨ (97 ≤ c.val ∧ c.val ≤ 122) ∨ (48 ≤ c.val ∧ c.val ≤ 57) ∨
    c.val = 45 ∨ c.val = 95

theorem b64uChar_alphabet {n : Nat} (h : n < 64) : IsB64uChar (b64uChar n) := by
  have hv := b64uChar_val h
  unfold IsB64uChar
  repeat' split at hv
  all_goals omega

theorem b64urlEncode_alphabet (d : Bytes) : ∀ c ∈ b64urlEncode d, IsB64uChar c := by
  rw [b64urlEncode_eq]
  induction d using b2a.induct with
  | case1 => simp [b64uRaw]
  | case2 a =>
    have ha := a.isLt
    simp only [b64uRaw, List.mem_cons, List.not_mem_nil, or_false]
    rintro c (rfl | rfl) <;> exact b64uChar_alphabet (by omega)
  | case3 a b =>
    have ha := a.isLt; have hb := b.isLt
    simp only [b64uRaw, List.mem_cons, List.not_mem_nil, or_false]
    rintro c (rfl | rfl | rfl) <;> exact b64uChar_alphabet (by omega)
  | case4 a b c rest ih =>
    have ha := a.isLt; have hb := b.isLt; have hc := c.isLt
    simp only [b64uRaw, List.mem_cons]
    rintro x (rfl | rfl | rfl | rfl | hx)
    · exact b64uChar_alphabet (by omega)
    · exact b64uChar_alphabet (by omega)
    · exact b64uChar_alphabet (by omega)
    · exact b64uChar_alphabet (by omega)
    · exact ih x hx

theorem b64uRaw_length (d : Bytes) : (b64uRaw d).length = (d.length * 4 + 2) / 3 := by
  induction d using b2a.induct with
  | case1 => rfl
  | case2 a => simp [b64uRaw]
  | case3 a b => simp [b64uRaw]
  | case4 a b c rest ih => simp only [b64uRaw, List.length_cons, ih]; omega

theorem exists_b64uChar {c : Byte} (h : IsB64uChar c) : ∃ n, n < 64 ∧ c = b64uChar n := by
  have key : ∀ n, n < 64 → c.val = (if n < 26 then 65 + n else if n < 52 then 97 + (n - 26)
      else if n < 62 then 48 + (n - 52) else if n = 62 then 45 else 95) →
      ∃ n, n < 64 ∧ c = b64uChar n := by
    intro n hn hv
    exact ⟨n, hn, Fin.ext (by rw [hv, b64uChar_val hn])⟩
  unfold IsB64uChar at h
  rcases h with h | h | h | h | h
  · exact key (c.val - 65) (by omega) (by rw [if_pos (by omega)]; omega)
  · exact key (c.val - 71) (by omega) (by rw [if_neg (by omega), if_pos (by omega)]; omega)
  · exact key (c.val + 4) (by omega)
      (by rw [if_neg (by omega), if_neg (by omega), if_pos (by omega)]; omega)
  · exact key 62 (by omega) h
  · exact key 63 (by omega) h

theorem a2bLoop_pads {q l k : Nat} {d : Bytes} : ∀ {p : Nat},
    a2bLoop q l p (List.replicate k 61) = .ok d → d = [] ∧ q ≠ 1 := by
  induction k with
  | zero =>
    intro p h
    simp only [List.replicate, a2bLoop] at h
    split at h
    · cases h; exact ⟨rfl, by omega⟩
    · cases h
  | succ k ih =>
    intro p h
    rw [List.replicate_succ] at h
    unfold a2bLoop at h
    rw [if_pos (by rfl)] at h
    split at h
    · split at h
      · cases h; exact ⟨rfl, by omega⟩
      · exact ih h
    · exact ih h

/-- Whatever decodes to `d` and uses only the alphabet is the canonical text, or differs from it in
the last character of an incomplete quad. -/
theorem a2bLoop_canonical : ∀ (s : Bytes) (l p k : Nat) (d : Bytes), k ≤ 3 →
    (∀ c ∈ s, IsB64uChar c) →
    a2bLoop 0 l p (s.map ofUrlsafe ++ List.replicate k 61) = .ok d →
    s = b64uRaw d ∨ (s.length % 4 ≠ 0 ∧ ∃ q x y, s = q ++ [x] ∧ b64uRaw d = q ++ [y])
  | [], l, p, k, d, hk, hs, h => by
    left
    have : ∀ k l p, a2bLoop 0 l p (List.replicate k 61) = .ok [] := by
      intro k
      induction k with
      | zero => intro l p; rfl
      | succ k ih => intro l p; rw [List.replicate_succ]; unfold a2bLoop; simpa using ih l p
    rw [List.map_nil, List.nil_append, this] at h
    cases h; rfl
  | [a], l, p, k, d, hk, hs, h => by
    obtain ⟨na, ha, rfl⟩ := exists_b64uChar (hs a (by simp))
    simp only [List.map, List.cons_append, List.nil_append] at h
    rw [ofUrlsafe_b64uChar ha, a2bLoop_char _ _ _ _ ha, if_pos rfl] at h
    exact absurd rfl (a2bLoop_pads h).2
  | [a, b], l, p, k, d, hk, hs, h => by
    obtain ⟨na, ha, rfl⟩ := exists_b64uChar (hs a (by simp))
    obtain ⟨nb, hb, rfl⟩ := exists_b64uChar (hs b (by simp))
    simp only [List.map, List.cons_append, List.nil_append] at h
    rw [ofUrlsafe_b64uChar ha, ofUrlsafe_b64uChar hb, a2bLoop_char _ _ _ _ ha, if_pos rfl,
      a2bLoop_char _ _ _ _ hb, if_neg (by decide), if_pos rfl] at h
    right
    refine ⟨by simp, ?_⟩
    cases hr : a2bLoop 2 (nb % 16) 0 (List.replicate k 61) with
    | error e => rw [hr] at h; cases h
    | ok r =>
      rw [hr] at h
      obtain ⟨rfl, -⟩ := a2bLoop_pads hr
      cases h
      refine ⟨[b64uChar na], b64uChar nb, b64uChar ((na * 4 + nb / 16) % 4 * 16), rfl, ?_⟩
      have hx : (byte (na * 4 + nb / 16)).val = na * 4 + nb / 16 := byte_of_lt (by omega)
      rw [b64uRaw, hx, show (na * 4 + nb / 16) / 4 = na by omega]; rfl
  | [a, b, c], l, p, k, d, hk, hs, h => by
    obtain ⟨na, ha, rfl⟩ := exists_b64uChar (hs a (by simp))
    obtain ⟨nb, hb, rfl⟩ := exists_b64uChar (hs b (by simp))
    obtain ⟨nc, hc, rfl⟩ := exists_b64uChar (hs c (by simp))
    simp only [List.map, List.cons_append, List.nil_append] at h
    rw [ofUrlsafe_b64uChar ha, ofUrlsafe_b64uChar hb, ofUrlsafe_b64uChar hc,
      a2bLoop_char _ _ _ _ ha, if_pos rfl,
      a2bLoop_char _ _ _ _ hb, if_neg (by decide), if_pos rfl,
      a2bLoop_char _ _ _ _ hc, if_neg (by decide), if_neg (by decide), if_pos rfl] at h
    right
    refine ⟨by simp, ?_⟩
    cases hr : a2bLoop 3 (nc % 4) 0 (List.replicate k 61) with
    | error e => rw [hr] at h; cases h
    | ok r =>
      rw [hr] at h
      obtain ⟨rfl, -⟩ := a2bLoop_pads hr
      cases h
      refine ⟨[b64uChar na, b64uChar nb], b64uChar nc,
        b64uChar ((nb % 16 * 16 + nc / 4) % 16 * 4), rfl, ?_⟩
      have hx : (byte (na * 4 + nb / 16)).val = na * 4 + nb / 16 := byte_of_lt (by omega)
      have hy : (byte (nb % 16 * 16 + nc / 4)).val = nb % 16 * 16 + nc / 4 := byte_of_lt (by omega)
      rw [b64uRaw, hx, hy, show (na * 4 + nb / 16) / 4 = na by omega,
        show (na * 4 + nb / 16) % 4 * 16 + (nb % 16 * 16 + nc / 4) / 16 = nb by omega]; rfl
  | a :: b :: c :: e :: s, l, p, k, d, hk, hs, h => by
    obtain ⟨na, ha, rfl⟩ := exists_b64uChar (hs a (by simp))
    obtain ⟨nb, hb, rfl⟩ := exists_b64uChar (hs b (by simp))
    obtain ⟨nc, hc, rfl⟩ := exists_b64uChar (hs c (by simp))
    obtain ⟨ne, he, rfl⟩ := exists_b64uChar (hs e (by simp))
    simp only [List.map, List.cons_append] at h
    rw [ofUrlsafe_b64uChar ha, ofUrlsafe_b64uChar hb, ofUrlsafe_b64uChar hc, ofUrlsafe_b64uChar he,
      a2bLoop_char _ _ _ _ ha, if_pos rfl,
      a2bLoop_char _ _ _ _ hb, if_neg (by decide), if_pos rfl,
      a2bLoop_char _ _ _ _ hc, if_neg (by decide), if_neg (by decide), if_pos rfl,
      a2bLoop_char _ _ _ _ he, if_neg (by decide), if_neg (by decide), if_neg (by decide)] at h
    cases hr : a2bLoop 0 0 0 (s.map ofUrlsafe ++ List.replicate k 61) with
    | error e => rw [hr] at h; cases h
    | ok r =>
      rw [hr] at h
      cases h
      have ih := a2bLoop_canonical s 0 0 k r hk (fun x hx => hs x (by simp [hx])) hr
      have hx : (byte (na * 4 + nb / 16)).val = na * 4 + nb / 16 := byte_of_lt (by omega)
      have hy : (byte (nb % 16 * 16 + nc / 4)).val = nb % 16 * 16 + nc / 4 := byte_of_lt (by omega)
      have hz : (byte (nc % 4 * 64 + ne)).val = nc % 4 * 64 + ne := byte_of_lt (by omega)
      simp only [b64uRaw, hx, hy, hz]
      rw [show (na * 4 + nb / 16) / 4 = na by omega,
        show (na * 4 + nb / 16) % 4 * 16 + (nb % 16 * 16 + nc / 4) / 16 = nb by omega,
        show (nb % 16 * 16 + nc / 4) % 16 * 4 + (nc % 4 * 64 + ne) / 64 = nc by omega,
        show (nc % 4 * 64 + ne) % 64 = ne by omega]
      rcases ih with ih | ⟨h4, q, x, y, h1, h2⟩
      · left; rw [← ih]
      · right
        refine ⟨by simp only [List.length_cons]; omega,
          b64uChar na :: b64uChar nb :: b64uChar nc :: b64uChar ne :: q, x, y, ?_, ?_⟩
        · rw [h1]; rfl
        · rw [h2]; rfl

end Psion
