import Verif.Real.EcdsaLemmas
import Verif.Real.FloatLemmas
import Verif.Props.Rfc7518
import Verif.Props.Jwk
import Mathlib.NumberTheory.LucasPrimality

/-!
# Properties C113, C114: nothing is assumed about signatures

The theorems about signatures speak about any operations of the package `cryptography`, and take what they need of them as hypotheses
(`GenuinePair`, `Documented`, `ArithLaws`, `HasPrivate`). Here the operations are the algorithms themselves: SHA-2 of FIPS 180-4, HMAC of
RFC 2104, RSASSA-PKCS1-v1_5 and RSASSA-PSS of RFC 8017, ECDSA of FIPS 186-4 (`Verif/Real`, checked against test vectors in
`Verif/Real/Vectors.lean`). The hypotheses become theorems.
-/

namespace Psion.Props

open Psion Psion.Spec

/-- The private part, if it is there, belongs to the public one: for RSA as in RFC 8017 with two primes, for EC as in FIPS 186-4. -/
def SoundKey : Material → Prop
  | .oct _ => True
  | .rsa n e p => ∀ r, p = some r → RsaKey n e r
  | .ec c x y d => ∀ n, d = some n → EcKey c x y n

/-- What a sound key signs, its public part accepts. -/
theorem C113_pair (m : Material) (hm : SoundKey m) : GenuinePair Real.crypto m (publicPart m) := by
  intro h pad msg seed sig hs
  cases m with
  | oct s => exact C19_oct_pair Real.crypto s h pad msg seed sig hs
  | ec c x y d =>
    cases d with
    | none => cases pad <;> simp [Material.sign] at hs
    | some d =>
      cases pad with
      | some pad => simp [Material.sign] at hs
      | none =>
        simp only [Material.sign, Except.ok.injEq] at hs
        subst hs
        have hv : Real.crypto.ecVerify c x y h msg (Real.crypto.ecSign c x y d h msg seed) = true :=
          (Real.documented.ecVerify ..).mpr ⟨_, _, rfl, Real.ecdsaSign_ok (hm d rfl) h msg seed⟩
        simp only [publicPart, Material.verify, hv, if_true]
  | rsa n e p =>
    cases pad with
    | none => cases p <;> simp [Material.sign] at hs
    | some pad =>
      cases p with
      | none => simp [Material.sign] at hs
      | some r =>
        have k := hm r rfl
        have hv : Real.crypto.rsaVerify n e pad h msg sig = .ok true := by
          cases pad with
          | pkcs1v15 => exact congrArg Except.ok (Real.pkcs_holds k hs)
          | pss => exact congrArg Except.ok (Real.pss_holds k hs)
        simp only [publicPart, Material.verify, hv]

theorem valid_of_init {cr : Crypto} {v : Val} {key : Jwk} (hk : Jwk.init cr v = .ok key) : key.mat.Valid cr := by
  obtain ⟨d, rfl, -, -, hmat⟩ := jwkInit_ok.mp hk
  exact materialInit_valid hmat

/-- Every EC key that is loaded is sound. -/
theorem C113_ec_sound (v : Val) (key : Jwk) (hk : Jwk.init Real.crypto v = .ok key) (c : Curve) (x y : Nat) (d : Option Nat)
    (hm : key.mat = .ec c x y d) : SoundKey key.mat := by
  have hval := valid_of_init hk
  rw [hm] at hval ⊢
  intro n hn
  exact (Real.priv_iff c x y n).mp (hval.2 n hn)

/-- The private part of an RSA key is one of RFC 8017. -/
def RsaSound (m : Material) : Prop := ∀ n e r, m = .rsa n e (some r) → RsaKey n e r

theorem sound_of_init {v : Val} {key : Jwk} (hk : Jwk.init Real.crypto v = .ok key) (hm : RsaSound key.mat) : SoundKey key.mat := by
  cases he : key.mat with
  | oct s => trivial
  | rsa n e p =>
    rintro r rfl
    exact hm n e r he
  | ec c x y d =>
    rw [← he]
    exact C113_ec_sound v key hk c x y d he

/-- C113: every token that is made with a key is accepted with the key loaded from its public dump, and gives the header and the payload
that went in. Only of an RSA key it is assumed that its numbers belong together: the library itself does not check it, and
what the package checks beyond `Real.crypto` is left open. -/
theorem C113_roundtrip (d0 : Dict PyStr Val) (h0 : Dict.Ok d0) (sk : Jwk) (hk : Jwk.init Real.crypto (.dict d0) = .ok sk)
    (hz : NoZero sk.mat) (hm : RsaSound sk.mat) (hv : Val) (h : JwsHeader) (hh : JwsHeader.init hv = .ok h)
    (hwf : (Val.dict h.data).Wf) (payload : Bytes) (seed : Nat) (tok : Bytes)
    (hs : Jws.serialize Real.crypto ⟨h, payload⟩ sk seed = .ok tok) (a : PyStr) (ha : dget h.data (py! "alg") = .str a) :
    ∃ d vk, sk.dump true = .ok d ∧ Jwk.init Real.crypto (.dict d) = .ok vk ∧
      Jws.deserialize Real.crypto tok vk (some a) true = .ok ⟨h, payload⟩ :=
  C19_public_dump_verifies Real.crypto Real.floats_laws hv h hh hwf payload d0 h0 sk hk hz (C113_pair _ (sound_of_init hk hm)) seed tok hs a ha

/-- C113: under HMAC and RSASSA-PKCS1-v1_5 the signature of every token that is made with a key is one of RFC 7518. -/
theorem C113_rfc (hv : Val) (h : JwsHeader) (hh : JwsHeader.init hv = .ok h) (a : PyStr) (ha : dget h.data (py! "alg") = .str a)
    (hp : a ∈ plainAlgs) (v : Val) (key : Jwk) (hk : Jwk.init Real.crypto v = .ok key) (hm : RsaSound key.mat) (payload : Bytes)
    (seed : Nat) (tok : Bytes) (ht : Jws.serialize Real.crypto ⟨h, payload⟩ key seed = .ok tok) :
    ∃ hb sig, utf8Encode (jsonDumps Real.crypto.fe (.dict h.data)) = .ok hb ∧
      tok = b64urlEncode hb ++ by! "." ++ b64urlEncode payload ++ by! "." ++ b64urlEncode sig ∧
      RfcSig Real.arith a key.mat (b64urlEncode hb ++ by! "." ++ b64urlEncode payload) sig := by
  exact C99_sign_partial Real.arith Real.crypto Real.documented hv h hh a ha hp v key hk (Real.laws _ hm) payload seed tok ht

/-- Digests and `DigestInfo` together have at most 83 octets. -/
theorem info_length (h : Hash) (m : Bytes) : (Real.digestInfo h ++ (Real.sha2 h).hash m).length = 19 + (Real.sha2 h).size := by
  rw [List.length_append, Real.hash_length]
  cases h <;> rfl

/-- C114, in part: an RSA key of 745 bits or more makes a signature of every message under every algorithm of RSA. -/
theorem C114_partial (n e : Nat) (r : RsaPriv) (hn : 2 ^ 744 ≤ n) : HasPrivate Real.crypto (.rsa n e (some r)) := by
  refine ⟨r, rfl, ?_⟩
  have hb : 745 ≤ bits n := by
    by_contra hc
    have h1 := Real.lt_bits n
    have h2 := Nat.pow_le_pow_right (show 0 < 2 by decide) (show bits n ≤ 744 by omega)
    have h3 := lt_of_lt_of_le h1 (le_trans h2 hn)
    exact absurd h3 (lt_irrefl _)
  clear hn
  intro pad h msg seed
  cases pad with
  | pkcs1v15 =>
    refine ⟨Real.rsaPrivate n r.d ?_, ?_⟩
    · exact [0, 1] ++ List.replicate (Real.modulusSize n - (Real.digestInfo h ++ (Real.sha2 h).hash msg).length - 3) 255 ++ [0] ++
        (Real.digestInfo h ++ (Real.sha2 h).hash msg)
    · show Real.pkcsSign n r.d h msg = _
      unfold Real.pkcsSign Real.pkcsEncode
      simp only
      rw [if_neg]
      rw [info_length]
      have : (Real.sha2 h).size ≤ 64 := by cases h <;> decide
      unfold Real.modulusSize
      omega
  | pss =>
    have hsz : (Real.sha2 h).size = digestSize h := by cases h <;> rfl
    have h64 : digestSize h ≤ 64 := by cases h <;> decide
    cases he : Real.pssEncode (bits n - 1) h msg (Real.octetsOf (maxSalt n h) seed) with
    | some em =>
      refine ⟨Real.rsaPrivate n r.d em, ?_⟩
      show Real.pssSign n r.d h (maxSalt n h) msg seed = _
      unfold Real.pssSign
      rw [he]
    | none =>
      exfalso
      unfold Real.pssEncode at he
      simp only at he
      split at he
      · rename_i hlt
        rw [Real.octetsOf_length, hsz] at hlt
        unfold maxSalt at hlt
        omega
      · cases he

/-- C114 is violated: with a modulus below 2 ^ 744 an RSA key without member `alg` cannot sign under RS512, and the error is a
`ValueError` of the package, not one of the library. `JsonWebKey.generate` makes such keys: it refuses only sizes below 512. -/
theorem C114_refuted (key : Jwk) (v : Val) (hk : Jwk.init Real.crypto v = .ok key) (n e : Nat) (r : RsaPriv)
    (hm : key.mat = .rsa n e (some r)) (hn : n < 2 ^ 744) (ha : (dget key.data (py! "alg")).truthy = false) (msg : Bytes) (seed : Nat) :
    (JwsAlg.rs .sha512).sign Real.crypto msg key seed = .error .valueErr := by
  have hb : bits n ≤ 744 := Real.bits_lt hn
  have herr : Real.pkcsSign n r.d .sha512 msg = .error .valueErr := by
    unfold Real.pkcsSign Real.pkcsEncode
    simp only
    rw [if_pos]
    rw [info_length]
    have : (Real.sha2 .sha512).size = 64 := rfl
    unfold Real.modulusSize
    omega
  have hkty := (keyInv_of_init hk).kty
  rw [hm] at hkty
  have hsign : key.mat.sign Real.crypto msg .sha512 (some .pkcs1v15) seed = .error .valueErr := by
    rw [hm]
    exact herr
  have hval : (JwsAlg.rs .sha512).validateKey key = .ok () := by
    unfold JwsAlg.validateKey
    simp only [ha, Bool.false_and, Bool.false_eq_true, if_false, hkty, JwsAlg.keyType]
    rfl
  unfold JwsAlg.sign
  simp only [JwsAlg.params, hval, hsign]

/-! ### A concrete key -/

/-- The test of Lucas for numbers of the form `f * 2 ^ k + 1`. -/
theorem prime_of_powers (p a f : Nat) (hf : f.Prime) (k : Nat) (hp : p = f * 2 ^ k + 1) (h1 : Real.powMod a (p - 1) p = 1)
    (h2 : Real.powMod a ((p - 1) / 2) p ≠ 1) (h3 : Real.powMod a ((p - 1) / f) p ≠ 1) (hp1 : 1 < p) : p.Prime := by
  have conv : ∀ x, Real.powMod a x p = 1 ↔ ((a : ZMod p) ^ x = 1) := by
    intro x
    rw [Real.powMod_eq]
    have : ((a : ZMod p) ^ x = 1) ↔ ((a ^ x : ℕ) : ZMod p) = ((1 : ℕ) : ZMod p) := by push_cast; rfl
    rw [this, ZMod.natCast_eq_natCast_iff]
    unfold Nat.ModEq
    rw [Nat.mod_eq_of_lt hp1]
  refine lucas_primality p (a : ZMod p) ((conv _).mp h1) ?_
  intro q hq hd
  rw [hp, Nat.add_sub_cancel] at hd
  rcases (Nat.Prime.dvd_mul hq).mp hd with h | h
  · rw [(Nat.prime_dvd_prime_iff_eq hq hf).mp h]
    exact fun hc => h3 ((conv _).mpr hc)
  · rw [(Nat.prime_dvd_prime_iff_eq hq Nat.prime_two).mp (hq.dvd_of_dvd_pow h)]
    exact fun hc => h2 ((conv _).mpr hc)

/-- A prime of 410 bits. -/
def protP : Nat := 3 * 2 ^ 408 + 1

/-- A prime of 435 bits. -/
def protQ : Nat := 7 * 2 ^ 432 + 1

theorem protP_prime : protP.Prime :=
  prime_of_powers protP 11 3 Nat.prime_three 408 rfl (by decide +kernel) (by decide +kernel) (by decide +kernel) (by decide +kernel)

theorem protQ_prime : protQ.Prime :=
  prime_of_powers protQ 3 7 (by decide) 432 rfl (by decide +kernel) (by decide +kernel) (by decide +kernel) (by decide +kernel)

/-- The private numbers of the key with these primes. -/
def protPriv : RsaPriv where
  d := 177451029651477950839977909552963887259869927654885248333475056525347672369246342611981377384986070928841890356632195895134626185217
  p := protP
  q := protQ
  dp := 1319529727103815267981318289916093838416043514595134665065217908970615328714341175796261686242926501566934512942147270803457
  dq := 22181526780712318703586715240951199867429451433839520123928200010928879132131307721742810643154254555387982542793595872712073347073
  qi := 270385534568596899369925511436743792541064321866670070570112408088191142208559632460633257605212729613618020368248879353657

/-- The RSA key of 845 bits with these primes. -/
def protMat : Material := .rsa (protP * protQ) 65537 (some protPriv)

theorem protKey_sound : SoundKey protMat := by
  rintro r h
  cases h
  exact ⟨protP_prime, protQ_prime, by decide +kernel, rfl, by decide +kernel, by decide +kernel, by decide +kernel⟩

/-- Its members. -/
def protJson : Dict PyStr Val :=
  match protMat.dump false with
  | .ok d => d
  | .error _ => []

theorem prot_nonzero : NoZero protMat := by
  refine ⟨by decide +kernel, by decide, ?_⟩
  intro r hr
  cases hr
  decide +kernel

/-- The key is loaded. -/
theorem prot_loads : ∃ sk, Jwk.init Real.crypto (.dict protJson) = .ok sk ∧ sk.mat = protMat := by
  have : (match Jwk.init Real.crypto (.dict protJson) with
      | .ok k => decide (k.mat = protMat)
      | .error _ => false) = true := by decide +kernel
  split at this
  · rename_i k hk
    exact ⟨k, hk, of_decide_eq_true this⟩
  · cases this

/-- It signs under every algorithm of RSA. -/
example : HasPrivate Real.crypto protMat := C114_partial _ _ _ (by decide +kernel)

/-- A token that it signs with PS256 is accepted with its public part. -/
example : ∃ sig, protMat.sign Real.crypto (by! "hi") .sha256 (some .pss) 7 = .ok sig ∧
    (publicPart protMat).verify Real.crypto sig (by! "hi") .sha256 (some .pss) = .ok () := by
  obtain ⟨r, hr, h⟩ := C114_partial (protP * protQ) 65537 protPriv (by decide +kernel)
  cases hr
  obtain ⟨sig, hs⟩ := h .pss .sha256 (by! "hi") 7
  have hs' : protMat.sign Real.crypto (by! "hi") .sha256 (some .pss) 7 = .ok sig := hs
  exact ⟨sig, hs', C113_pair protMat protKey_sound _ _ _ _ _ hs'⟩

/-- A whole token, with RS256. -/
example : ∃ sk d vk tok h, Jwk.init Real.crypto (.dict protJson) = .ok sk ∧ sk.dump true = .ok d ∧ Jwk.init Real.crypto (.dict d) = .ok vk ∧
    Jws.serialize Real.crypto ⟨h, by! "hi"⟩ sk 0 = .ok tok ∧
    Jws.deserialize Real.crypto tok vk (some (py! "RS256")) true = .ok ⟨h, by! "hi"⟩ := by
  obtain ⟨sk, hk, hm⟩ := prot_loads
  have ht : ∃ tok, Jws.serialize Real.crypto ⟨⟨[(py! "alg", .str (py! "RS256"))], .rs .sha256⟩, by! "hi"⟩ sk 0 = .ok tok := by
    have : (match Jwk.init Real.crypto (.dict protJson) with
      | .ok k => (match Jws.serialize Real.crypto ⟨⟨[(py! "alg", .str (py! "RS256"))], .rs .sha256⟩, by! "hi"⟩ k 0 with
        | .ok _ => true
        | .error _ => false)
      | .error _ => false) = true := by decide +kernel
    rw [hk] at this
    simp only at this
    split at this
    · exact ⟨_, by assumption⟩
    · cases this
  obtain ⟨tok, ht⟩ := ht
  obtain ⟨d, vk, h1, h2, h3⟩ := C113_roundtrip protJson (by unfold Dict.Ok; decide +kernel) sk hk (by rw [hm]; exact prot_nonzero) (by rw [hm]; intro n e r h; cases h; exact protKey_sound _ rfl)
    (.dict [(py! "alg", .str (py! "RS256"))]) _ rfl (by simp [Val.Wf, Val.WfD, fullDict, Val.isNone]) _ _ _ ht _ rfl
  exact ⟨sk, d, vk, tok, _, hk, h1, h2, ht, h3⟩

/-- A key of 633 bits, as `generate` may make one. -/
def smallMat : Material :=
  .rsa ((3 * 2 ^ 276 + 1) * (3 * 2 ^ 353 + 1)) 65537 (some
    { d := 45869832337890998563295862444492061407020864666409450035908147229544497656479793450882155701807432471609345
      p := 3 * 2 ^ 276 + 1
      q := 3 * 2 ^ 353 + 1
      dp := 235245176958281796892605926809127652821726215352742126708493519084473835702338912257
      dq := 45869832337890998563295862444492061407020864666409450035908147229544497656479793450882155701807432471609345
      qi := 207630692109098041269668140273767127030994168269894314704629757718299268738400058326 })

/-- It is loaded, and cannot sign under RS512. -/
example : ∃ d key, Jwk.init Real.crypto (.dict d) = .ok key ∧ key.mat = smallMat ∧
    (JwsAlg.rs .sha512).sign Real.crypto (by! "hi") key 0 = .error .valueErr := by
  have : (match smallMat.dump false with
    | .ok d => (match Jwk.init Real.crypto (.dict d) with
      | .ok k => decide (k.mat = smallMat) && !(dget k.data (py! "alg")).truthy
      | .error _ => false)
    | .error _ => false) = true := by decide +kernel
  split at this
  · rename_i d hd
    split at this
    · rename_i k hk
      rw [Bool.and_eq_true, Bool.not_eq_true'] at this
      have hm := of_decide_eq_true this.1
      exact ⟨d, k, hk, hm, C114_refuted k _ hk _ _ _ hm (by decide +kernel) this.2 _ _⟩
    · cases this
  · cases this

end Psion.Props
