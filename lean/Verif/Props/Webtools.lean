import Verif.Py.HeaderLemmas

/-!
# Properties C01 – C12: encodings, URLs, headers, JSON (`/repo/src/psion/webtools.py`)
-/

namespace Psion.Props

open Psion

/-! ## C01 -/

/-- C01: every byte string survives `base64url_encode` followed by `base64url_decode`, and the
encoded text only uses `A-Z a-z 0-9 - _`. -/
theorem C01_base64url_roundtrip (b : Bytes) :
    b64urlDecode (b64urlEncode b) = .ok b ∧
      ∀ c ∈ b64urlEncode b,
        (65 ≤ c.val ∧ c.val ≤ 90) ∨ (97 ≤ c.val ∧ c.val ≤ 122) ∨ (48 ≤ c.val ∧ c.val ≤ 57) ∨
          c.val = 45 ∨ c.val = 95 :=
  ⟨b64_roundtrip b, b64urlEncode_alphabet b⟩

/-- The encoding of `n` bytes has `⌈4n/3⌉` characters. -/
theorem C01_length (b : Bytes) : (b64urlEncode b).length = (4 * b.length + 2) / 3 := by
  rw [b64urlEncode_eq, b64uRaw_length, Nat.mul_comm]

example : b64urlEncode [255, 254, 253, 0] = by! "__79AA" := by decide
example : b64urlDecode (by! "__79AA") = .ok [255, 254, 253, 0] := by decide

/-! ## C02 -/

/-- C02 is false: two different unpadded texts decode to the same bytes (unused bits of the last
character, characters outside of the alphabet, text after padding are all ignored). -/
theorem C02_distinct_spellings_refuted :
    ¬ ∀ s t : Bytes, ∀ d, b64urlDecode s = .ok d → b64urlDecode t = .ok d → s = t := by
  intro h
  exact absurd (h (by! "QQ") (by! "QR") (by! "A") (by decide) (by decide)) (by decide)

/-- Other accepted spellings of the same byte: garbage characters, standard alphabet, trailing
text after padding. -/
theorem C02_lenient_examples :
    b64urlDecode (by! "Q!Q") = .ok (by! "A") ∧ b64urlDecode (by! "QQ==garbage") = .ok (by! "A") ∧
      b64urlDecode (by! "-_+/") = b64urlDecode (by! "+/-_") := by
  decide

/-- C02, what holds: a text over the url-safe alphabet that decodes to `d` has the same length as
the encoding of `d`, differs from it at most in its last character, and is
equal to it when its length is a multiple of four. -/
theorem C02_distinct_spellings_partial (s : Bytes) (d : Bytes) (hs : ∀ c ∈ s, IsB64uChar c)
    (h : b64urlDecode s = .ok d) :
    s.length = (b64urlEncode d).length ∧ s.dropLast = (b64urlEncode d).dropLast ∧
      (s.length % 4 = 0 → s = b64urlEncode d) := by
  unfold b64urlDecode a2b at h
  rw [List.map_append, List.map_replicate, ofUrlsafe_pad] at h
  rw [b64urlEncode_eq]
  rcases a2bLoop_canonical s 0 0 _ d (by omega) hs h with h | ⟨h4, q, x, y, h1, h2⟩
  · exact ⟨by rw [h], by rw [h], fun _ => h⟩
  · rw [h2]
    refine ⟨by rw [h1]; simp, by rw [h1]; simp, fun h => absurd h h4⟩

example : (∀ c ∈ by! "QR", IsB64uChar c) ∧ b64urlDecode (by! "QR") = .ok (by! "A") ∧
    b64urlEncode (by! "A") = by! "QQ" := by
  refine ⟨?_, by decide, by decide⟩
  simp [IsB64uChar]

/-! ## C03 -/

/-- C03 is false at zero: `int_to_b64(0)` is the empty text and `b64_to_int` refuses it. -/
theorem C03_int_roundtrip_refuted :
    ∃ b, intToB64 0 = .ok b ∧ b64ToInt (asciiStr b) = .error .valueErr :=
  ⟨[], by decide, by decide⟩

/-- C03, what holds: every positive number round trips. -/
theorem C03_int_roundtrip_partial (n : Nat) (hn : 0 < n) :
    ∃ b, intToB64 n = .ok b ∧ b64ToInt (asciiStr b) = .ok n :=
  b64ToInt_intToB64 hn

/-- Distinct natural numbers have distinct encodings (zero included). -/
theorem C03_injective (m n : Nat) (b : Bytes) (hm : intToB64 m = .ok b) (hn : intToB64 n = .ok b) :
    m = n := by
  unfold intToB64 at hm hn
  rw [if_neg (by omega)] at hm hn
  simp only [Except.ok.injEq, Int.toNat_natCast] at hm hn
  have h := b64urlEncode_injective (hm.trans hn.symm)
  rw [← ofBE_toBE _ _ (lt_256_pow m), h, ofBE_toBE _ _ (lt_256_pow n)]

/-- Negative numbers are rejected with `ValueError`. -/
theorem C03_negative (n : Int) (hn : n < 0) : intToB64 n = .error .valueErr := by
  simp [intToB64, hn]

example : intToB64 65537 = .ok (by! "AQAB") := by decide
example : b64ToInt (py! "AQAB") = .ok 65537 := by decide

/-! ## C04 -/

/-- C04: text that UTF-8 can encode survives `to_bytes` followed by `to_string`. -/
theorem C04_string_roundtrip (s : PyStr) (h : Encodable s) :
    ∃ b, toBytesS s = .ok b ∧ toStringB b = s := by
  obtain ⟨b, hb⟩ := utf8Encode_ok h
  exact ⟨b, hb, by rw [toStringB, utf8Decode_encode hb]⟩

/-- C04: `to_bytes(to_string(b)) == b` exactly for the byte strings that are the encoding of some
text; otherwise `to_string(b)` is the base64url text of `b`. -/
theorem C04_bytes_roundtrip (b : Bytes) :
    (toBytesS (toStringB b) = .ok b ↔ ∃ s, utf8Encode s = .ok b) ∧
      ((¬ ∃ s, utf8Encode s = .ok b) → toStringB b = asciiStr (b64urlEncode b)) := by
  have hnone : utf8Decode b = none ↔ ¬ ∃ s, utf8Encode s = .ok b := by
    constructor
    · rintro h ⟨s, hs⟩; rw [utf8Decode_encode hs] at h; cases h
    · intro h
      cases hd : utf8Decode b with
      | none => rfl
      | some s => exact absurd ⟨s, utf8Encode_decode hd⟩ h
  refine ⟨⟨fun h => ⟨_, h⟩, ?_⟩, ?_⟩
  · rintro ⟨s, hs⟩
    rw [toStringB, utf8Decode_encode hs]; exact hs
  · intro h
    rw [toStringB, hnone.mpr h]

/-- C04: the silent fallback makes `to_string` collide: different byte strings with the same text. -/
theorem C04_collision : toStringB [255] = toStringB (by! "_w") := by decide +kernel

example : utf8Encode [0x41, 0xE9, 0x20AC, 0x1F600] =
    .ok [0x41, 0xC3, 0xA9, 0xE2, 0x82, 0xAC, 0xF0, 0x9F, 0x98, 0x80] := by decide
example : Encodable [0x41, 0xE9, 0x20AC, 0x1F600] := by unfold Encodable; decide
example : utf8Encode [0xD800] = .error .unicodeEncode := by decide

/-! ## C05 -/

/-- C05: for every dictionary of parameters, the query produced by `urlencode` decodes to exactly the
parameters that are neither `None` nor empty, in order. -/
theorem C05_urlencode_roundtrip (url : PyStr) (params : NDict PyStr PyStr) (hd : Dict.Ok params)
    (u : PyStr) (h : urlencode url params = .ok u) :
    ∃ q, u = url ++ py! "?" ++ q ∧
      urldecode q = params.filterMap
        (fun kv => match kv.2 with
          | some (c :: v) => some (kv.1, c :: v)
          | _ => none) := by
  unfold urlencode at h
  rw [someEntries_init] at h
  split at h
  · cases h
  · rename_i ps hps
    cases h
    refine ⟨joinWith [38] ps, by simp, ?_⟩
    unfold urldecode
    rw [parseQsl_join hps, nonEmpty, Dict.ofPairs_ok (Dict.ok_filter (ok_someEntries hd) _)]
    unfold someEntries
    rw [List.filter_filterMap]
    congr 1
    funext kv
    obtain ⟨k, v⟩ := kv
    cases v with
    | none => rfl
    | some v => cases v <;> rfl

/-- C05: `urlencode` succeeds for all texts that can be encoded as UTF-8. -/
theorem C05_urlencode_total (url : PyStr) (params : NDict PyStr PyStr)
    (h : ∀ k v, (k, some v) ∈ params → Encodable k ∧ Encodable v) :
    ∃ u, urlencode url params = .ok u := by
  unfold urlencode
  rw [someEntries_init]
  obtain ⟨ps, hps⟩ := urlencodePairs_ok (d := someEntries params) (by
    rintro ⟨k, v⟩ hkv
    simp only [someEntries, List.mem_filterMap, Option.map_eq_some_iff] at hkv
    obtain ⟨⟨k', v'⟩, hm, w, hw, heq⟩ := hkv
    simp only at hw heq
    subst hw
    cases heq
    exact h _ _ hm)
  exact ⟨_, by rw [hps]⟩

example : urlencode (py! "http://c/cb") [(py! "a b", some (py! "x&y=+%")), (py! "n", none),
    (py! "e", some [])] = .ok (py! "http://c/cb?a+b=x%26y%3D%2B%25&e=") := by decide
example : Dict.Ok [(py! "a b", some (py! "x&y=+%")), (py! "n", none), (py! "e", some [])] := by
  unfold Dict.Ok; decide

/-! ## C06 -/

/-- C06: every character of the Location header is printable ASCII other than the space (in
particular there is no CR or LF). -/
theorem C06_location_safe (url loc : PyStr) (h : quotePlus locSafe url = .ok loc) :
    ∀ c ∈ loc, 33 ≤ c ∧ c ≤ 126 := by
  unfold quotePlus at h
  split at h
  · cases h
  · cases h
    intro c hc
    rw [List.mem_flatMap] at hc
    obtain ⟨b, -, hc⟩ := hc
    have hb := b.isLt
    unfold quoteByte at hc
    split at hc
    · simp at hc; omega
    split at hc
    · rename_i h2
      simp only [List.mem_singleton] at hc
      subst hc
      rw [Bool.or_eq_true, alwaysSafe_iff, locSafe_iff] at h2
      simp at h2
      omega
    · simp only [List.mem_cons, List.not_mem_nil, or_false] at hc
      have h1 := hexUp_val (n := b.val / 16) (by omega)
      have h2 := hexUp_val (n := b.val % 16) (by omega)
      rcases hc with rfl | rfl | rfl <;> omega

/-- C06: a URL made of unreserved and reserved URL characters and percent escapes is unchanged. -/
theorem C06_location_identity (url : PyStr)
    (h : ∀ c ∈ url, (48 ≤ c ∧ c ≤ 57) ∨ (65 ≤ c ∧ c ≤ 90) ∨ (97 ≤ c ∧ c ≤ 122) ∨
      c ∈ py! "-._~:/%#?&=@[]!$&'()*+,;") :
    quotePlus locSafe url = .ok url := by
  apply quotePlus_safe
  intro c hc
  rw [Bool.or_eq_true, alwaysSafe_iff, locSafe_iff]
  have := h c hc
  simp at this ⊢
  omega

/-- C06: the header can be built for every URL that UTF-8 can encode. -/
theorem C06_location_total (url : PyStr) (h : Encodable url) : ∃ loc, quotePlus locSafe url = .ok loc :=
  quotePlus_ok locSafe h

example : quotePlus locSafe [104, 13, 10, 32, 233] = .ok (py! "h%0D%0A+%C3%A9") := by decide

/-! ## C07 -/

/-- C07 is false when `update` is among the operations: it is inherited from `dict` and
does not go through the overridden assignment. -/
theorem C07_fulldict_refuted :
    ∃ (d e : NDict Nat Nat), (1, none) ∈ FullDict.updateInherited (FullDict.init d []) e :=
  ⟨[], [(1, none)], by decide⟩

/-- A sequence of item assignments on a `FullDict`. -/
def assignAll {κ α : Type} [DecidableEq κ] (d : NDict κ α) (ops : List (κ × Option α)) : NDict κ α :=
  ops.foldl (fun d op => FullDict.setItem d op.1 op.2) d

/-- C07, what holds: construction followed by any sequence of item assignments never exposes
`None`. -/
theorem C07_fulldict_partial {κ α : Type} [DecidableEq κ] (data kwargs : NDict κ α)
    (ops : List (κ × Option α)) :
    ∀ k, (k, none) ∉ assignAll (FullDict.init data kwargs) ops := by
  suffices ∀ d : NDict κ α, (∀ k, (k, none) ∉ d) → ∀ k, (k, none) ∉ assignAll d ops by
    apply this
    intro k hk
    simp [FullDict.init, dropNone] at hk
  induction ops with
  | nil => intro d h; exact h
  | cons op ops ih =>
    intro d h
    apply ih
    obtain ⟨k', v⟩ := op
    cases v with
    | none => exact h
    | some v =>
      intro k hk
      rcases Dict.mem_set hk with hk | hk
      · exact h k hk
      · cases hk

/-- C07: assigning a value behaves like a plain dictionary, assigning `None` changes nothing. -/
theorem C07_assign {κ α : Type} [DecidableEq κ] (d : NDict κ α) (k k' : κ) (v : Option α) :
    Dict.get (FullDict.setItem d k v) k' =
      if k = k' ∧ v.isSome then some v else Dict.get d k' := by
  cases v with
  | none => simp [FullDict.setItem]
  | some v => simp [FullDict.setItem, Dict.get_set]

example : assignAll (FullDict.init [(1, none), (2, some 5)] []) [(3, some 1), (2, none)] =
    [(2, some 5), (3, some 1)] := by decide

/-! ## C08 -/

/-- C08: a Basic header built from an id without `:` and a secret is parsed back, whatever the
letter case of the scheme. -/
theorem C08_basic_roundtrip (headers : Dict PyStr PyStr) (scheme id secret : PyStr) (raw : Bytes)
    (hs : asciiLower scheme = py! "basic") (hid : 58 ∉ id)
    (hraw : utf8Encode (id ++ py! ":" ++ secret) = .ok raw)
    (hh : Dict.get headers (py! "authorization") =
      some (scheme ++ py! " " ++ asciiStr (b2a raw))) :
    getBasicAuthorization headers = .ok (some (id, secret)) := by
  have hne : scheme ≠ [] := by rintro rfl; cases hs
  have hsp : ∀ x ∈ scheme, isPySpace x = false := by
    intro x hx
    have : (if 65 ≤ x ∧ x ≤ 90 then x + 32 else x) ∈ py! "basic" := by
      rw [← hs]; exact List.mem_map_of_mem hx
    have hx' : (65 ≤ x ∧ x ≤ 90) ∨ (97 ≤ x ∧ x ≤ 122) := by
      split at this
      · left; assumption
      · simp at this; omega
    simp only [isPySpace, Bool.or_eq_false_iff, Bool.and_eq_false_iff, decide_eq_false_iff_not,
      beq_eq_false_iff_ne]
    omega
  have hrne : raw ≠ [] := by
    rintro rfl
    have := utf8Decode_encode hraw
    have h0 : utf8Decode [] = some [] := by decide +kernel
    rw [h0] at this
    simp at this
  obtain ⟨c, r, hcr⟩ := List.exists_cons_of_ne_nil (b2a_ne_nil hrne)
  have hsplit : splitNone1 (scheme ++ py! " " ++ asciiStr (b2a raw)) =
      [scheme, asciiStr (b2a raw)] := by
    have hc := (b2a_chars raw c (by rw [hcr]; simp)).2
    rw [hcr]
    simp only [asciiStr, List.map_cons, List.append_assoc, List.cons_append, List.nil_append]
    exact splitNone1_two hne hsp hc
  have hauth : authHeader headers = some (scheme ++ py! " " ++ asciiStr (b2a raw)) := by
    obtain ⟨a, t, rfl⟩ := List.exists_cons_of_ne_nil hne
    unfold authHeader
    rw [hh]
    rfl
  unfold getBasicAuthorization
  rw [hauth]
  dsimp only
  rw [if_neg (by simp), hsplit]
  dsimp only
  rw [if_neg (by simpa using hs), b64decodeStr_b2a]
  dsimp only
  rw [toStringB, utf8Decode_encode hraw, List.append_assoc]
  dsimp only
  exact congrArg _ (splitOnce_append hid)

/-- C08: whatever is returned comes from a base64 token that decodes to the UTF-8 encoding of
`id:secret`, with no `:` in the id: credentials that are not UTF-8 or have no `:` are never
returned. -/
theorem C08_basic_sound (headers : Dict PyStr PyStr) (id secret : PyStr)
    (h : getBasicAuthorization headers = .ok (some (id, secret))) :
    ∃ auth scheme token raw, authHeader headers = some auth ∧ splitNone1 auth = [scheme, token] ∧
      asciiLower scheme = py! "basic" ∧ b64decodeStr token = .ok raw ∧
      utf8Encode (id ++ py! ":" ++ secret) = .ok raw ∧ 58 ∉ id :=
  getBasic_sound headers id secret h

example : getBasicAuthorization [(py! "authorization", py! "bASIC czZCaGRSa3F0MzpnWDFmQmF0M2JW")] =
    .ok (some (py! "s6BhdRkqt3", py! "gX1fBat3bV")) := by decide +kernel
example : asciiLower (py! "bASIC") = py! "basic" ∧ 58 ∉ py! "s6BhdRkqt3" ∧
    utf8Encode (py! "s6BhdRkqt3" ++ py! ":" ++ py! "gX1fBat3bV") =
      .ok (by! "s6BhdRkqt3:gX1fBat3bV") ∧
    asciiStr (b2a (by! "s6BhdRkqt3:gX1fBat3bV")) = py! "czZCaGRSa3F0MzpnWDFmQmF0M2JW" := by decide

/-! ## C09 -/

/-- C09 is false: a scheme followed only by white space cannot be unpacked in two parts, and a
Basic token with a non-ASCII character raises `ValueError`. -/
theorem C09_header_never_raises_refuted :
    (∃ auth, getBasicAuthorization [(py! "authorization", auth)] = .error .valueErr) ∧
    (∃ auth, getBearerAuthorization [(py! "authorization", auth)] = .error .valueErr) ∧
    getBasicAuthorization [(py! "authorization", py! "Basic " ++ [233])] = .error .valueErr :=
  ⟨⟨py! "Basic ", by decide⟩, ⟨py! "Bearer ", by decide⟩, by decide⟩

/-- The header value consists of a word, white space, and more text. -/
def TwoWords (auth : PyStr) : Prop :=
  ∃ w c r, auth = w ++ 32 :: c :: r ∧ w ≠ [] ∧ (∀ x ∈ w, isPySpace x = false) ∧
    isPySpace c = false

/-- C09, what holds: ASCII header values of the form `word text` never make the parsers raise, nor
do header values without a space, empty values and missing headers. -/
theorem C09_header_never_raises_partial (headers : Dict PyStr PyStr)
    (h : ∀ auth, authHeader headers = some auth →
      32 ∉ auth ∨ (TwoWords auth ∧ ∀ c ∈ auth, c < 128)) :
    (∃ r, getBasicAuthorization headers = .ok r) ∧
      (∃ r, getBearerAuthorization headers = .ok r) := by
  unfold getBasicAuthorization getBearerAuthorization
  cases hauth : authHeader headers with
  | none => exact ⟨⟨_, rfl⟩, ⟨_, rfl⟩⟩
  | some auth =>
    dsimp only
    rcases h auth hauth with h | ⟨⟨w, c, r, rfl, hw, hws, hc⟩, hascii⟩
    · rw [if_pos (Or.inr h), if_pos (Or.inr h)]
      exact ⟨⟨_, rfl⟩, ⟨_, rfl⟩⟩
    · rw [if_neg (by simp), if_neg (by simp), splitNone1_two hw hws hc]
      dsimp only
      constructor
      · split
        · exact ⟨_, rfl⟩
        · have hall : (c :: r).all (· < 128) = true := by
            rw [List.all_eq_true]
            intro x hx
            simpa using hascii x (by simp at hx ⊢; exact Or.inr (Or.inr hx))
          unfold b64decodeStr
          rw [if_pos hall]
          cases hd : a2b ((c :: r).map byte) with
          | ok raw => exact ⟨_, rfl⟩
          | error e => rw [a2bLoop_error hd]; exact ⟨_, rfl⟩
      · split <;> exact ⟨_, rfl⟩

/-- C09: the only exception the parsers can raise is `ValueError`. -/
theorem C09_only_value_error (headers : Dict PyStr PyStr) (e : Exc) :
    (getBasicAuthorization headers = .error e → e = .valueErr) ∧
      (getBearerAuthorization headers = .error e → e = .valueErr) := by
  constructor
  · intro h
    unfold getBasicAuthorization at h
    split at h
    · cases h
    split at h
    · cases h
    split at h
    · split at h
      · cases h
      split at h
      · cases h
      · cases h
      · rename_i e' hne _ he
        cases h
        unfold b64decodeStr at he
        split at he
        · exact absurd (a2bLoop_error he) (by assumption)
        · cases he; rfl
      · cases h
    · cases h; rfl
  · intro h
    unfold getBearerAuthorization at h
    split at h
    · cases h
    split at h
    · cases h
    split at h
    · split at h <;> cases h
    · cases h; rfl

example : TwoWords (py! "Basic not/base64!") ∧
    getBasicAuthorization [(py! "authorization", py! "Basic not/base64!")] = .ok none := by
  refine ⟨⟨py! "Basic", 110, py! "ot/base64!", rfl, by decide, by decide, by decide⟩, ?_⟩
  decide +kernel

/-! ## C10 -/

/-- C10: for at least one random choice the token has one character per choice, all of them
unreserved URL characters, it is unchanged by URL encoding, and the choices can be read back. -/
theorem C10_secret_token (cs : List (Fin 64)) (h : cs ≠ []) :
    ∃ t, secretToken cs = .ok t ∧ t.length = cs.length ∧
      (∀ c ∈ t, (48 ≤ c ∧ c ≤ 57) ∨ (65 ≤ c ∧ c ≤ 90) ∨ (97 ≤ c ∧ c ≤ 122) ∨ c = 45 ∨ c = 95) ∧
      quotePlus noSafe t = .ok t ∧
      (∀ cs', secretToken cs' = .ok t → cs' = cs) := by
  have halpha : ∀ i : Fin 64, (48 ≤ tokenChar i ∧ tokenChar i ≤ 57) ∨
      (65 ≤ tokenChar i ∧ tokenChar i ≤ 90) ∨ (97 ≤ tokenChar i ∧ tokenChar i ≤ 122) ∨
      tokenChar i = 45 ∨ tokenChar i = 95 := by
    intro i
    have := i.isLt
    unfold tokenChar
    repeat' split
    all_goals omega
  have hinj : ∀ i j : Fin 64, tokenChar i = tokenChar j → i = j := by
    intro i j hij
    have := i.isLt
    have := j.isLt
    unfold tokenChar at hij
    apply Fin.ext
    repeat' split at hij
    all_goals omega
  have hall : ∀ c ∈ cs.map tokenChar, (48 ≤ c ∧ c ≤ 57) ∨ (65 ≤ c ∧ c ≤ 90) ∨
      (97 ≤ c ∧ c ≤ 122) ∨ c = 45 ∨ c = 95 := by
    intro c hc
    obtain ⟨i, -, rfl⟩ := List.mem_map.mp hc
    exact halpha i
  refine ⟨cs.map tokenChar, by simp [secretToken, h], by simp, hall, ?_, ?_⟩
  · apply quotePlus_safe
    intro c hc
    have := hall c hc
    rw [Bool.or_eq_true, alwaysSafe_iff]
    omega
  · intro cs' h'
    unfold secretToken at h'
    split at h'
    · cases h'
    · have := Except.ok.inj h'
      exact (List.map_inj_right hinj).mp this

example : secretToken [0, 26, 52, 62, 63] = .ok (py! "aA0-_") := by decide
example : secretToken [] = .error .typeErr := by decide

/-! ## C11 -/

/-- C11: every JSON value (dictionaries with distinct keys, finite numbers) is read back from its
own text. The two laws about the text of binary floats are the only assumption. -/
theorem C11_json_roundtrip (fe : FloatEnv) (hl : FloatLaws fe) (v : Val) (h : v.Wf) :
    jsonParse fe (jsonDumps fe v) = .ok v :=
  jsonParse_print fe hl v h

/-- C11, through bytes: if the text can be encoded it is read back from the encoded form too. -/
theorem C11_json_roundtrip_bytes (fe : FloatEnv) (hl : FloatLaws fe) (v : Val) (h : v.Wf)
    (b : Bytes) (hb : utf8Encode (jsonDumps fe v) = .ok b) : jsonLoads fe b = .ok v := by
  unfold jsonLoads toStringB
  rw [utf8Decode_encode hb]
  exact jsonParse_print fe hl v h

/-- A nested value meeting the hypothesis. -/
def sampleVal : Val :=
  .dict [(py! "a", .list [.int (-12), .none, .bool true, .dict []]), ([233, 34, 10], .str (py! "x"))]

example : sampleVal.Wf := by simp [sampleVal, Val.Wf, Val.WfL, Val.WfD]
example (fe : FloatEnv) : jsonDumps fe sampleVal =
    py! "{\"a\": [-12, null, true, {}], \"é\\\"\\n\": \"x\"}" := by rfl

/-! ## C12 -/

/-- The hash functions have the lengths of SHA-256/384/512 digests. -/
def HashLengths (he : HashEnv) : Prop :=
  (∃ f, he.sha (py! "256") = some f ∧ ∀ b, (f b).length = 32) ∧
  (∃ f, he.sha (py! "384") = some f ∧ ∀ b, (f b).length = 48) ∧
  (∃ f, he.sha (py! "512") = some f ∧ ∀ b, (f b).length = 64)

/-- C12: for an algorithm name ending in 256, 384 or 512 the half hash is the base64url text of the
first 16, 24 or 32 bytes of the digest of the token. -/
theorem C12_half_hash (he : HashEnv) (hl : HashLengths he) (token : PyStr) (htok : Encodable token)
    (a b : Nat) (suffix : PyStr) (n : Nat)
    (hs : (suffix, n) ∈ [(py! "256", 16), (py! "384", 24), (py! "512", 32)]) :
    ∃ f bytes out, he.sha suffix = some f ∧ utf8Encode token = .ok bytes ∧
      createHalfHash he token (a :: b :: suffix) = .ok (asciiStr out) ∧
      out = b64urlEncode ((f bytes).take n) ∧ b64urlDecode out = .ok ((f bytes).take n) ∧
      ((f bytes).take n).length = n := by
  obtain ⟨bytes, hb⟩ := utf8Encode_ok htok
  have main : ∀ f m, he.sha suffix = some f → (∀ b, (f b).length = m) → m / 2 = n →
      ∃ f bytes out, he.sha suffix = some f ∧ utf8Encode token = .ok bytes ∧
      createHalfHash he token (a :: b :: suffix) = .ok (asciiStr out) ∧
      out = b64urlEncode ((f bytes).take n) ∧ b64urlDecode out = .ok ((f bytes).take n) ∧
      ((f bytes).take n).length = n := by
    intro f m hf hm hn
    refine ⟨f, bytes, b64urlEncode ((f bytes).take n), hf, hb, ?_, rfl, b64_roundtrip _, ?_⟩
    · unfold createHalfHash
      simp only [List.drop_succ_cons, List.drop_zero, hf, hb]
      rw [hm, hn, toStringB_ascii]
      intro c hc
      exact (b64urlEncode_alphabet _ c hc).ascii
    · rw [List.length_take, hm]; omega
  obtain ⟨⟨f1, h1, l1⟩, ⟨f2, h2, l2⟩, ⟨f3, h3, l3⟩⟩ := hl
  simp only [List.mem_cons, Prod.mk.injEq, List.not_mem_nil, or_false] at hs
  rcases hs with ⟨rfl, rfl⟩ | ⟨rfl, rfl⟩ | ⟨rfl, rfl⟩
  · exact main f1 32 h1 l1 rfl
  · exact main f2 48 h2 l2 rfl
  · exact main f3 64 h3 l3 rfl

/-- C12: a name without such a hash raises. -/
theorem C12_unknown (he : HashEnv) (token alg : PyStr) (h : he.sha (alg.drop 2) = none) :
    createHalfHash he token alg = .error .attrErr := by
  simp [createHalfHash, h]

/-- A toy environment with the required lengths. -/
def toyHash : HashEnv where
  sha n := if n = py! "256" then some (fun b => (b ++ List.replicate 32 0).take 32)
    else if n = py! "384" then some (fun b => (b ++ List.replicate 48 0).take 48)
    else if n = py! "512" then some (fun b => (b ++ List.replicate 64 0).take 64)
    else none

theorem toyHash_lengths : HashLengths toyHash := by
  refine ⟨⟨_, rfl, ?_⟩, ⟨_, rfl, ?_⟩, ⟨_, rfl, ?_⟩⟩ <;> intro b <;> simp <;> omega
example : createHalfHash toyHash (py! "abc") (py! "RS256") = .ok (py! "YWJjAAAAAAAAAAAAAAAAAA") := by
  decide +kernel
example : createHalfHash toyHash (py! "abc") (py! "none") = .error .attrErr := by decide

end Psion.Props
