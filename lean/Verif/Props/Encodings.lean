import Verif.Py.EncodingLemmas

/-!
# Property C126: the encodings of `/repo/src/psion/webtools.py` are those of the standards
-/

namespace Psion.Props

open Psion Psion.Spec

/-- C126: `base64url_encode` gives the text of RFC 4648, section 5, without pad characters, and nothing else. -/
theorem C126_base64url (m t : Bytes) : b64urlEncode m = t ↔ Base64url m t := base64url_iff.symm

/-- C126: `base64url_decode` reads the text of RFC 4648 as the octets it stands for. -/
theorem C126_base64url_decode (m t : Bytes) (h : Base64url m t) : b64urlDecode t = .ok m := by
  rw [← base64url_iff.mp h]
  exact b64_roundtrip m

/-- C126: `base64url_decode` also reads the text of section 4, with pad characters and the other alphabet. -/
theorem C126_base64_decode (m t : Bytes) (h : Base64 m t) : b64urlDecode t = .ok m := by
  have hl : t.length % 4 = 0 := by obtain ⟨_, _, _, _, _, _, _, hl⟩ := h; exact hl
  obtain ⟨pad, -, hb, -⟩ := b2a_groups m
  rw [base64_iff.mp h] at hb
  unfold b64urlDecode a2b
  rw [hl, List.replicate_zero, List.append_nil]
  have : t.map ofUrlsafe = t := by
    rw [hb, List.map_append, List.map_replicate, ofUrlsafe_pad, List.map_map]
    congr 1
    apply List.map_congr_left
    intro g hg
    have h1 := b64Char_val (groupsOf_lt m g hg)
    simp only [Function.comp, ofUrlsafe]
    rw [if_neg, if_neg]
    · repeat' split at h1
      all_goals omega
    · repeat' split at h1
      all_goals omega
  rw [this, ← base64_iff.mp h]
  exact a2b_b2a m 0 0

/-- C126, as far as it holds: `int_to_b64` gives the text of RFC 7518, section 2, for positive numbers, and nothing else. -/
theorem C126_number_partial (n : Nat) (hn : 0 < n) (t : Bytes) : intToB64 n = .ok t ↔ Base64urlUInt n t := by
  have key : ∀ m : Bytes, (octetsValue m = n ∧ m ≠ [] ∧ (m.head? = some 0 → m = [0])) ↔ m = toBE ((bitLength n + 7) / 8) n := by
    intro m
    rw [← minimal_iff hn m]
    refine and_congr_right fun h => ?_
    have h0 : octetsValue [] = 0 := rfl
    have h1 : octetsValue [0] = 0 := rfl
    constructor
    · rintro ⟨-, h3⟩ h4
      rw [h3 h4] at h
      omega
    · exact fun h3 => ⟨fun h4 => by rw [h4] at h; omega, fun h4 => absurd h4 h3⟩
  unfold intToB64 Base64urlUInt
  rw [if_neg (by omega), Int.toNat_natCast, Except.ok.injEq]
  constructor
  · rintro rfl
    obtain ⟨h1, h2, h3⟩ := (key _).mpr rfl
    exact ⟨_, h1, h2, h3, base64url_iff.mpr rfl⟩
  · rintro ⟨m, h1, h2, h3, h4⟩
    rw [← (key m).mp ⟨h1, h2, h3⟩]
    exact base64url_iff.mp h4

/-- C126 fails for zero: RFC 7518 asks for `AA`, and `int_to_b64` gives the empty text. -/
theorem C126_number_refuted : Base64urlUInt 0 (by! "AA") ∧ ¬ ∃ t, intToB64 0 = .ok t ∧ Base64urlUInt 0 t := by
  refine ⟨⟨[0], rfl, by simp, fun _ => rfl, base64url_iff.mpr (by decide)⟩, ?_⟩
  rintro ⟨t, ht, m, -, h2, -, h4⟩
  have : t = [] := by
    have : intToB64 0 = .ok [] := by decide
    rw [this] at ht
    exact (Except.ok.inj ht).symm
  subst this
  have := C126_base64url_decode m [] h4
  rw [show b64urlDecode [] = .ok [] by decide] at this
  exact h2 (Except.ok.inj this).symm

/-- C126: `b64_to_int` reads the text of any octets as the number they stand for, zero and leading zeros included. -/
theorem C126_number_read (m t : Bytes) (hm : m ≠ []) (h : Base64url m t) : b64ToInt (asciiStr t) = .ok (octetsValue m) := by
  have ha : ∀ c ∈ t, c.val < 128 := by
    rw [← base64url_iff.mp h]
    intro c hc
    rcases b64urlEncode_alphabet m c hc with h | h | h | h | h <;> omega
  unfold b64ToInt
  rw [toBytesAscii_ascii ha]
  dsimp only
  rw [C126_base64url_decode m t h]
  dsimp only
  rw [if_neg hm, octetsValue_eq]

/-- C126: `to_bytes` gives the octets of RFC 3629, and nothing else. -/
theorem C126_utf8 (s : PyStr) (b : Bytes) : toBytesS s = .ok b ↔ Utf8Octets s b := utf8Octets_iff.symm

/-- C126: it raises `UnicodeEncodeError` exactly for texts that have no octets. -/
theorem C126_utf8_error (s : PyStr) (e : Exc) : toBytesS s = .error e ↔ e = .unicodeEncode ∧ ¬ ∃ b, Utf8Octets s b := by
  constructor
  · intro h
    refine ⟨utf8Encode_error h, ?_⟩
    rintro ⟨b, hb⟩
    rw [(C126_utf8 s b).mpr hb] at h
    cases h
  · rintro ⟨rfl, h⟩
    cases hs : toBytesS s with
    | ok b => exact absurd ⟨b, (C126_utf8 s b).mp hs⟩ h
    | error e => rw [utf8Encode_error hs]

/-- C126: `to_string` gives the text of the octets, and for octets that are not those of any text their base64url text. -/
theorem C126_to_string (b : Bytes) (s : PyStr) :
    toStringB b = s ↔ Utf8Octets s b ∨ (¬ ∃ s', Utf8Octets s' b) ∧ ∃ t, Base64url b t ∧ s = asciiStr t := by
  simp only [utf8Octets_iff, base64url_iff]
  unfold toStringB
  cases h : utf8Decode b with
  | some s' =>
    have hs := utf8Encode_decode h
    dsimp only
    constructor
    · rintro rfl
      exact Or.inl hs
    · rintro (h' | ⟨h', -⟩)
      · rw [utf8Decode_encode h'] at h
        exact (Option.some.inj h).symm
      · exact absurd ⟨s', hs⟩ h'
  | none =>
    have hn : ¬ ∃ s', utf8Encode s' = .ok b := by
      rintro ⟨s', hs⟩
      rw [utf8Decode_encode hs] at h
      cases h
    dsimp only
    constructor
    · rintro rfl
      exact Or.inr ⟨hn, _, rfl, rfl⟩
    · rintro (h' | ⟨-, t, rfl, rfl⟩)
      · exact absurd ⟨s, h'⟩ hn
      · rfl

/-! ## Examples of the standards -/

/-- RFC 4648, section 10. -/
example : Base64 (by! "foobar") (by! "Zm9vYmFy") ∧ Base64 (by! "fooba") (by! "Zm9vYmE=") ∧ Base64 (by! "f") (by! "Zg==") ∧
    Base64url (by! "f") (by! "Zg") ∧ Base64url [0xfb, 0xff] (by! "-_8") :=
  ⟨base64_iff.mpr (by decide), base64_iff.mpr (by decide), base64_iff.mpr (by decide), base64url_iff.mpr (by decide),
    base64url_iff.mpr (by decide)⟩

/-- The exponent of RFC 7517, appendix A.1. -/
example : Base64urlUInt 65537 (by! "AQAB") := (C126_number_partial 65537 (by decide) _).mp (by decide)

/-- RFC 3629, section 7: `A≢Α.` and a character beyond the basic plane; a surrogate has no octets. -/
example : Utf8Octets [0x41, 0x2262, 0x391, 0x2E] [0x41, 0xE2, 0x89, 0xA2, 0xCE, 0x91, 0x2E] ∧ Utf8Octets [0x233B4] [0xF0, 0xA3, 0x8E, 0xB4] ∧
    toBytesS [0xD800] = .error .unicodeEncode :=
  ⟨utf8Octets_iff.mpr (by decide), utf8Octets_iff.mpr (by decide), by decide⟩

/-- The octet `ff` is no text. -/
example : toStringB [255] = py! "_w" := by decide +kernel

end Psion.Props
