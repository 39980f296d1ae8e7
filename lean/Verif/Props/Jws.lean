import Verif.Jose.KeyLemmas
import Verif.Props.Toy

/-!
# Properties C19 – C27: Json Web Signatures (`/repo/src/psion/jose/jws.py`, `/repo/src/psion/jose/jwa/jws.py`)
-/

namespace Psion.Props

open Psion Psion.Spec

/-! Sample keys and headers for the examples. -/

/-- An `oct` key without any further member. -/
def octKey : Jwk := ⟨[(py! "kty", .str (py! "oct")), (py! "k", .str (py! "c2VjcmV0"))], .oct (by! "secret")⟩

example : Jwk.init toyCrypto (.dict octKey.data) = .ok octKey := by rfl

/-- An EC key pair (toy numbers). -/
def ecKey : Jwk :=
  ⟨[(py! "kty", .str (py! "EC")), (py! "crv", .str (py! "P-256")), (py! "x", .str (py! "BQ")),
    (py! "y", .str (py! "BQ")), (py! "d", .str (py! "BQ"))], .ec .p256 5 5 (some 5)⟩

example : Jwk.init toyCrypto (.dict ecKey.data) = .ok ecKey := by rfl

/-- The public half of `ecKey`. -/
def ecPubKey : Jwk :=
  ⟨[(py! "kty", .str (py! "EC")), (py! "crv", .str (py! "P-256")), (py! "x", .str (py! "BQ")),
    (py! "y", .str (py! "BQ"))], .ec .p256 5 5 none⟩

example : Jwk.init toyCrypto (.dict ecPubKey.data) = .ok ecPubKey := by rfl

def hsHeader : JwsHeader :=
  ⟨[(py! "alg", .str (py! "HS256")), (py! "typ", .str (py! "JWT"))], .hs .sha256⟩

def esHeader : JwsHeader := ⟨[(py! "alg", .str (py! "ES256"))], .es .sha256⟩

example : JwsHeader.init (.dict hsHeader.data) = .ok hsHeader := by rfl

/-! ## C19 -/

/-- The text sent for a header can be read back. -/
theorem header_reads_back {cr : Crypto} (hf : FloatLaws cr.fe) {h : JwsHeader} {hb : Bytes}
    (hwf : (Val.dict h.data).Wf) (hb' : utf8Encode (jsonDumps cr.fe (.dict h.data)) = .ok hb) :
    jsonLoads cr.fe hb = .ok (.dict h.data) := by
  unfold jsonLoads toStringB
  rw [utf8Decode_encode hb']
  exact jsonParse_print cr.fe hf _ hwf

/-- C19: whatever `serialize` returns for a valid header, `deserialize` with the matching key, with validation on, with
or without the expected algorithm, returns the same header and payload. `GenuinePair` is the only assumption about
the signature primitives: `vk` accepts what `sk` signs. -/
theorem C19_jws_roundtrip (cr : Crypto) (hf : FloatLaws cr.fe) (hv : Val) (h : JwsHeader)
    (hh : JwsHeader.init hv = .ok h) (hwf : (Val.dict h.data).Wf) (payload : Bytes) (sk vk : Jwk)
    (seed : Nat) (tok : Bytes) (hs : Jws.serialize cr ⟨h, payload⟩ sk seed = .ok tok)
    (hpair : GenuinePair cr sk.mat vk.mat) (hsame : SameRestrictions sk vk)
    (alg : Option PyStr) (halg : alg = none ∨ ∃ a, alg = some a ∧ dget h.data (py! "alg") = .str a) :
    Jws.deserialize cr tok vk alg true = .ok ⟨h, payload⟩ := by
  obtain ⟨m, s, hk, hm, hsig, rfl⟩ := serialize_ok.mp hs
  unfold Jws.message at hm
  split at hm
  · cases hm
  rename_i hb hhb
  cases hm
  have e : ∀ k ∈ [py! "kty", py! "crv", py! "alg", py! "kid", py! "use", py! "key_ops"],
      dget vk.data k = dget sk.data k := fun k hk => (hsame k hk).symm
  have hdot : (46 : Byte) ∉ s := by
    simp only [JwsAlg.sign] at hsig
    split at hsig
    · cases hsig; simp
    · split at hsig
      · cases hsig
      · split at hsig
        · cases hsig
        · cases hsig; exact no_dot _
  refine deserialize_ok.mpr ⟨_, _, _, _, _, split_token _ _ _ (no_dot _) (no_dot _) hdot,
    b64_roundtrip _, header_reads_back hf hwf hhb, headerInit_idem hh, ?_, fun _ => ⟨?_, ?_⟩,
    b64_roundtrip _⟩
  · rcases halg with rfl | ⟨a, rfl, ha⟩
    · rfl
    · cases a with
      | nil => rfl
      | cons c a => simp only [algMatches, ha]; exact pyEq_str.mpr rfl
  · rw [← hk]
    unfold validateKey
    rw [e _ (by simp), e _ (by simp), e _ (by simp), e _ (by simp)]
  · simp only at hsig ⊢
    have hval : ∀ a : JwsAlg, a.validateKey vk = a.validateKey sk := by
      intro a
      unfold JwsAlg.validateKey
      rw [e _ (by simp), e _ (by simp), e _ (by simp)]
    unfold JwsAlg.verify
    unfold JwsAlg.sign at hsig
    split at hsig
    · rfl
    · rename_i hash pad hp
      simp only [hval]
      split at hsig
      · cases hsig
      · split at hsig
        · cases hsig
        · rename_i raw hraw
          cases hsig
          simp only [b64_roundtrip]
          exact hpair _ _ _ _ _ hraw

/-- For symmetric keys nothing has to be assumed about the primitives. -/
theorem C19_oct_pair (cr : Crypto) (s : Bytes) : GenuinePair cr (.oct s) (.oct s) := by
  intro h pad msg seed sig hs
  cases pad with
  | some p => simp [Material.sign] at hs
  | none =>
    simp only [Material.sign, Except.ok.injEq] at hs
    simp [Material.verify, hs]

/-- C19, existence: a private key of the right type, not restricted by its own members, signs every payload under every
header whose text can be encoded (for RSA if the primitive does not refuse the key as too small). -/
theorem C19_serialize_total (cr : Crypto) (hv : Val) (h : JwsHeader) (hh : JwsHeader.init hv = .ok h)
    (henc : Encodable (jsonDumps cr.fe (.dict h.data))) (v : Val) (sk : Jwk)
    (hk : Jwk.init cr v = .ok sk) (a : PyStr) (ha : dget h.data (py! "alg") = .str a)
    (hfit : AlgFits a sk.mat)
    (hfree : ∀ k ∈ [py! "alg", py! "use", py! "key_ops"], (dget sk.data k).truthy = false)
    (hkid : (dget h.data (py! "kid")).truthy = false)
    (hpriv : HasPrivate cr sk.mat) (payload : Bytes) (seed : Nat) :
    ∃ tok, Jws.serialize cr ⟨h, payload⟩ sk seed = .ok tok := by
  have hi := keyInv_of_init hk
  have hname : h.alg.name = a := by
    have := header_alg hh
    rw [dget_of_get this] at ha
    exact Val.str.inj ha
  obtain ⟨hb, hhb⟩ := utf8Encode_ok henc
  have hval : validateKey sk h = .ok () := by
    unfold validateKey
    simp only [hfree (py! "alg") (by simp), hfree (py! "use") (by simp),
      hfree (py! "key_ops") (by simp), hkid, Bool.false_and, Bool.false_eq_true, if_false]
  have hval2 : h.alg.validateKey sk = .ok () := by
    have h1 := hfree (py! "alg") (by simp)
    have h2 := hi.kty
    have h3 := hi.crv
    have ho := JwsAlg.ofName_name h.alg
    rw [hname] at ho
    clear hname
    generalize h.alg = al at ho ⊢
    obtain ⟨kd, m⟩ := sk
    unfold JwsAlg.validateKey
    simp only at hfit h2 h3 h1 ⊢
    rw [h1, h2]
    cases hfit with
    | es256 x y d =>
      cases ho
      rw [h3 _ _ _ _ rfl]
      simp [Material.kty, Kty.name, JwsAlg.keyType, Val.pyEq, Curve.name, curveOf]
    | es384 x y d =>
      cases ho
      rw [h3 _ _ _ _ rfl]
      simp [Material.kty, Kty.name, JwsAlg.keyType, Val.pyEq, Curve.name, curveOf]
    | es512 x y d =>
      cases ho
      rw [h3 _ _ _ _ rfl]
      simp [Material.kty, Kty.name, JwsAlg.keyType, Val.pyEq, Curve.name, curveOf]
    | _ =>
      cases ho
      simp [Material.kty, Kty.name, JwsAlg.keyType, Val.pyEq]
  have hsig : ∀ msg, ∃ s, h.alg.sign cr msg sk seed = .ok s := by
    intro msg
    have ho := JwsAlg.ofName_name h.alg
    rw [hname] at ho
    unfold JwsAlg.sign
    rw [hval2]
    clear hname hval2
    generalize h.alg = al at ho ⊢
    obtain ⟨kd, m⟩ := sk
    simp only at hfit hpriv ⊢
    cases hfit with
    | hs256 s => cases ho; exact ⟨_, rfl⟩
    | hs384 s => cases ho; exact ⟨_, rfl⟩
    | hs512 s => cases ho; exact ⟨_, rfl⟩
    | es256 x y d => cases ho; obtain ⟨n, rfl⟩ := hpriv; exact ⟨_, rfl⟩
    | es384 x y d => cases ho; obtain ⟨n, rfl⟩ := hpriv; exact ⟨_, rfl⟩
    | es512 x y d => cases ho; obtain ⟨n, rfl⟩ := hpriv; exact ⟨_, rfl⟩
    | rs256 | rs384 | rs512 =>
      cases ho
      obtain ⟨r, rfl, hr⟩ := hpriv
      simp only [JwsAlg.params, Material.sign]
      obtain ⟨s, hs⟩ := hr .pkcs1v15 _ msg seed
      exact ⟨_, by rw [hs]⟩
    | ps256 | ps384 | ps512 =>
      cases ho
      obtain ⟨r, rfl, hr⟩ := hpriv
      simp only [JwsAlg.params, Material.sign]
      obtain ⟨s, hs⟩ := hr .pss _ msg seed
      exact ⟨_, by rw [hs]⟩
  have hmsg : (Jws.mk h payload).message cr =
      .ok (b64urlEncode hb ++ 46 :: b64urlEncode payload) := by
    unfold Jws.message
    simp only [hhb]
  obtain ⟨s, hs⟩ := hsig (b64urlEncode hb ++ 46 :: b64urlEncode payload)
  exact ⟨_, serialize_ok.mpr ⟨_, s, hval, hmsg, hs, rfl⟩⟩

example : GenuinePair toyCrypto ecKey.mat ecPubKey.mat := by
  intro h pad msg seed sig hs
  have := toyCrypto_genuine ecKey.mat h pad msg seed sig hs
  cases pad <;> exact this

example : AlgFits (py! "ES256") ecKey.mat ∧ HasPrivate toyCrypto ecKey.mat ∧
    JwsHeader.init (.dict esHeader.data) = .ok esHeader := ⟨.es256 _ _ _, ⟨5, rfl⟩, rfl⟩

/-- A token under ES256, and its round trip. -/
example : ∃ tok, Jws.serialize toyCrypto ⟨esHeader, by! "hello"⟩ ecKey 7 = .ok tok ∧
    Jws.deserialize toyCrypto tok ecKey (some (py! "ES256")) true = .ok ⟨esHeader, by! "hello"⟩ := by
  obtain ⟨tok, ht⟩ := C19_serialize_total toyCrypto (.dict esHeader.data) esHeader rfl
    (by unfold Encodable; decide) (.dict ecKey.data) ecKey rfl (py! "ES256") rfl (.es256 _ _ _)
    (by intro k hk; revert k; decide) rfl ⟨5, rfl⟩ (by! "hello") 7
  exact ⟨tok, ht, C19_jws_roundtrip toyCrypto toyFloat_laws (.dict esHeader.data) esHeader rfl
    (by simp [esHeader, Val.Wf, Val.WfD]) _ ecKey ecKey 7 tok ht (toyCrypto_genuine _)
    (fun _ _ => rfl) _ (Or.inr ⟨_, rfl, rfl⟩)⟩

/-! ## C20 – C22 -/

/-- Everything that is known about an accepted token. -/
theorem accepted {cr : Crypto} {v : Val} {key : Jwk} (hk : Jwk.init cr v = .ok key) {tok : Bytes}
    {alg : Option PyStr} {j : Jws} (h : Jws.deserialize cr tok key alg true = .ok j) :
    ∃ hb pb sb a, tok = hb ++ 46 :: pb ++ 46 :: sb ∧ b64urlDecode pb = .ok j.payload ∧
      (∃ raw v, b64urlDecode hb = .ok raw ∧ jsonLoads cr.fe raw = .ok v ∧
        JwsHeader.init v = .ok j.header) ∧
      dget j.header.data (py! "alg") = .str a ∧ validateKey key j.header = .ok () ∧
      (a = py! "none" ∨ ∃ raw, b64urlDecode sb = .ok raw ∧
        SigOk cr a key.mat (hb ++ 46 :: pb) raw) := by
  obtain ⟨hb, pb, sb, raw, w, hsplit, h1, h2, h3, h4, h5, h6⟩ := deserialize_ok.mp h
  obtain ⟨h5, h7⟩ := h5 rfl
  refine ⟨hb, pb, sb, j.header.alg.name, (split_token_inv hsplit).1, h6, ⟨raw, w, h1, h2, h3⟩,
    dget_of_get (header_alg h3), h5, ?_⟩
  by_cases hn : j.header.alg = .none
  · left; rw [hn]; rfl
  · right; exact sigOk_of_verify (keyInv_of_init hk) hn h7

/-- C20: a token accepted with an expected algorithm `a` other than `none` has header algorithm `a`, and its third
segment is a valid `a`-signature, under the key, of exactly the transmitted first two segments; the payload is
the decoded second segment and the header is the decoded first segment. -/
theorem C20_expected_algorithm (cr : Crypto) (v : Val) (key : Jwk) (hk : Jwk.init cr v = .ok key)
    (tok : Bytes) (a : PyStr) (ha : a ≠ []) (hn : a ≠ py! "none") (j : Jws)
    (h : Jws.deserialize cr tok key (some a) true = .ok j) :
    ∃ hb pb sb raw sig hd, tok = hb ++ 46 :: pb ++ 46 :: sb ∧
      b64urlDecode hb = .ok raw ∧ jsonLoads cr.fe raw = .ok (.dict hd) ∧
      Dict.get hd (py! "alg") = some (.str a) ∧ j.header.data = fullDict hd ∧
      b64urlDecode sb = .ok sig ∧ SigOk cr a key.mat (hb ++ 46 :: pb) sig ∧
      b64urlDecode pb = .ok j.payload := by
  obtain ⟨hb, pb, sb, a', ht, hp, ⟨raw, w, h1, h2, h3⟩, hal, -, hsig⟩ := accepted hk h
  obtain ⟨-, -, -, -, -, -, -, -, -, hm, -⟩ := deserialize_ok.mp h
  have haa : a' = a := by
    cases a with
    | nil => exact absurd rfl ha
    | cons c a =>
      simp only [algMatches, hal] at hm
      exact Val.str.inj (pyEq_str.mp hm)
  subst haa
  obtain ⟨hd, rfl, hfull, hget, -⟩ := headerInit_ok.mp h3
  have : j.header.alg.name = a' := by
    have := header_alg h3
    rw [dget_of_get this] at hal
    exact Val.str.inj hal
  rw [this] at hget
  rcases hsig with rfl | ⟨sig, hs1, hs2⟩
  · exact absurd rfl hn
  · exact ⟨hb, pb, sb, raw, sig, hd, ht, h1, h2, hget, hfull, hs1, hs2, hp⟩

/-- An HS256 token of the toy scheme, accepted with the expected algorithm (see the hypothesis of C20). -/
example : ∃ tok, Jws.serialize toyCrypto ⟨hsHeader, by! "hi"⟩ octKey 0 = .ok tok ∧
    Jws.deserialize toyCrypto tok octKey (some (py! "HS256")) true = .ok ⟨hsHeader, by! "hi"⟩ := by
  obtain ⟨tok, ht⟩ := C19_serialize_total toyCrypto (.dict hsHeader.data) hsHeader rfl
    (by unfold Encodable; decide) (.dict octKey.data) octKey rfl (py! "HS256") rfl (.hs256 _)
    (by intro k hk; revert k; decide) rfl trivial (by! "hi") 0
  exact ⟨tok, ht, C19_jws_roundtrip toyCrypto toyFloat_laws (.dict hsHeader.data) hsHeader rfl
    (by simp [hsHeader, Val.Wf, Val.WfD]) _ octKey octKey 0 tok ht (toyCrypto_genuine _)
    (fun _ _ => rfl) _ (Or.inr ⟨_, rfl, rfl⟩)⟩

/-- What `_validate_key` says about the algorithm of the key. -/
theorem validateKey_alg {key : Jwk} {h : JwsHeader} (hv : validateKey key h = .ok ())
    (ht : (dget key.data (py! "alg")).truthy = true) :
    (dget key.data (py! "alg")).pyEq (dget h.data (py! "alg")) = true := by
  unfold validateKey at hv
  simp only at hv
  split at hv
  · cases hv
  · rename_i h1
    simpa [ht] using h1

/-- C21: a key with a non-empty `alg` member is never used with another algorithm, neither to accept nor to produce a
token, with or without an expected algorithm. -/
theorem C21_key_bound_alg (cr : Crypto) (key : Jwk)
    (ht : (dget key.data (py! "alg")).truthy = true) :
    (∀ tok alg j, Jws.deserialize cr tok key alg true = .ok j →
      dget j.header.data (py! "alg") = dget key.data (py! "alg")) ∧
    (∀ hv h payload seed tok, JwsHeader.init hv = .ok h →
      Jws.serialize cr ⟨h, payload⟩ key seed = .ok tok →
      dget h.data (py! "alg") = dget key.data (py! "alg")) := by
  constructor
  · intro tok alg j h
    obtain ⟨_, _, _, _, w, -, -, -, h3, -, h5, -⟩ := deserialize_ok.mp h
    have h6 := validateKey_alg (h5 rfl).1 ht
    rw [dget_of_get (header_alg h3)] at h6 ⊢
    exact (pyEq_str.mp h6).symm
  · intro hv h payload seed tok hh hs
    obtain ⟨_, _, h1, -⟩ := serialize_ok.mp hs
    have h6 := validateKey_alg h1 ht
    rw [dget_of_get (header_alg hh)] at h6 ⊢
    exact (pyEq_str.mp h6).symm

/-- A key bound to HS256 refuses an HS512 header and accepts an HS256 one. -/
example :
    let key : Jwk := ⟨octKey.data ++ [(py! "alg", .str (py! "HS256"))], octKey.mat⟩
    (dget key.data (py! "alg")).truthy = true ∧
    Jws.serialize toyCrypto ⟨⟨[(py! "alg", .str (py! "HS512"))], .hs .sha512⟩, []⟩ key 0 =
      .error (.jose .invalidKey) ∧
    (∃ t, Jws.serialize toyCrypto ⟨hsHeader, []⟩ key 0 = .ok t) :=
  ⟨rfl, rfl, _, rfl⟩

/-- C22: no token is accepted or produced with a key of the wrong type or curve for the algorithm of its header. -/
theorem C22_no_key_confusion (cr : Crypto) (v : Val) (key : Jwk) (hk : Jwk.init cr v = .ok key) :
    (∀ tok alg j, Jws.deserialize cr tok key alg true = .ok j → ∃ a,
      dget j.header.data (py! "alg") = .str a ∧ (a = py! "none" ∨ AlgFits a key.mat)) ∧
    (∀ hv h payload seed tok, JwsHeader.init hv = .ok h →
      Jws.serialize cr ⟨h, payload⟩ key seed = .ok tok → ∃ a,
      dget h.data (py! "alg") = .str a ∧ (a = py! "none" ∨ AlgFits a key.mat)) := by
  constructor
  · intro tok alg j h
    obtain ⟨hb, pb, sb, a, -, -, -, ha, -, hsig⟩ := accepted hk h
    refine ⟨a, ha, hsig.imp id ?_⟩
    rintro ⟨raw, -, hs⟩
    generalize key.mat = m at hs ⊢
    cases hs <;> constructor
  · intro hv h payload seed tok hh hs
    obtain ⟨m, s, -, -, h3, -⟩ := serialize_ok.mp hs
    refine ⟨h.alg.name, dget_of_get (header_alg hh), ?_⟩
    by_cases hn : h.alg = .none
    · left; rw [hn]; rfl
    · right; exact algFits_of_sign (keyInv_of_init hk) hn h3

/-- The table excludes the classic confusion: an RSA public key used as an HMAC secret. -/
theorem C22_hmac_with_rsa (n e : Nat) (p : Option RsaPriv) : ¬ AlgFits (py! "HS256") (.rsa n e p) := by
  intro h; cases h

/-- The EC key cannot be used for HS256. -/
example : Jws.serialize toyCrypto ⟨hsHeader, by! "x"⟩ ecKey 0 = .error (.jose .invalidKey) := rfl

/-! ## C23 -/

/-- Text of the header `{"alg": "none"}`. -/
def noneHeaderText : Bytes := by! "{\"alg\": \"none\"}"

/-- C23 is false, for every key that is not bound to an algorithm: anybody can make a token with any payload that is
accepted with validation on (the header says `none`, the signature is empty). -/
theorem C23_unsigned_refuted (cr : Crypto) (key : Jwk) (payload : Bytes)
    (ha : (dget key.data (py! "alg")).truthy = false)
    (hu : (dget key.data (py! "use")).truthy = false ∨ dget key.data (py! "use") = .str (py! "sig"))
    (ho : (dget key.data (py! "key_ops")).truthy = false) :
    Jws.deserialize cr (b64urlEncode noneHeaderText ++ 46 :: b64urlEncode payload ++ [46]) key none
      true = .ok ⟨⟨[(py! "alg", .str (py! "none"))], .none⟩, payload⟩ := by
  refine deserialize_ok.mpr ⟨_, _, _, _, .dict [(py! "alg", .str (py! "none"))],
    split_token _ _ [] (no_dot _) (no_dot _) (by simp), b64_roundtrip _, ?_, rfl, rfl,
    fun _ => ⟨?_, rfl⟩, b64_roundtrip _⟩
  · have : toStringB noneHeaderText = py! "{\"alg\": \"none\"}" := by decide +kernel
    unfold jsonLoads
    rw [this]
    rfl
  · unfold validateKey
    simp only [ha, ho, Bool.false_and, Bool.false_eq_true, if_false]
    have hkid : (dget [(py! "alg", Val.str (py! "none"))] (py! "kid")).truthy = false := rfl
    rw [hkid]
    simp only [Bool.false_and, Bool.false_eq_true, if_false]
    rcases hu with hu | hu
    · rw [hu]; rfl
    · rw [hu]; rfl

/-- The sample key meets the hypotheses, and so does every key with only the required members. -/
example : (dget ecPubKey.data (py! "alg")).truthy = false ∧ (dget ecPubKey.data (py! "use")).truthy = false ∧
    (dget ecPubKey.data (py! "key_ops")).truthy = false := ⟨rfl, rfl, rfl⟩

/-- C23, what holds: without an expected algorithm every accepted token is either unsigned (`none`) or carries a valid
signature under the key; the first case is impossible when the key has an `alg` member other than
`none`. -/
theorem C23_unsigned_partial (cr : Crypto) (v : Val) (key : Jwk) (hk : Jwk.init cr v = .ok key)
    (tok : Bytes) (alg : Option PyStr) (j : Jws)
    (h : Jws.deserialize cr tok key alg true = .ok j) :
    ∃ hb pb sb a, tok = hb ++ 46 :: pb ++ 46 :: sb ∧ dget j.header.data (py! "alg") = .str a ∧
      (a = py! "none" ∨
        ∃ sig, b64urlDecode sb = .ok sig ∧ SigOk cr a key.mat (hb ++ 46 :: pb) sig) ∧
      ((dget key.data (py! "alg")).truthy = true → dget key.data (py! "alg") ≠ .str (py! "none") →
        a ≠ py! "none") := by
  obtain ⟨hb, pb, sb, a, ht, -, -, ha, -, hsig⟩ := accepted hk h
  refine ⟨hb, pb, sb, a, ht, ha, hsig, ?_⟩
  rintro h1 h2 rfl
  exact h2 (((C21_key_bound_alg cr key h1).1 tok alg j h).symm.trans ha)

/-- A key with `alg` HS256 is of this kind. -/
example : (dget (octKey.data ++ [(py! "alg", .str (py! "HS256"))]) (py! "alg")).truthy = true ∧
    dget (octKey.data ++ [(py! "alg", .str (py! "HS256"))]) (py! "alg") ≠ .str (py! "none") :=
  ⟨rfl, by simp [octKey, dget, Dict.get]⟩

/-! ## C24 -/

/-- Every message for which the key accepts some signature (under any algorithm) is the signed text of a JWS in
`log`. -/
def Unforgeable (cr : Crypto) (m : Material) (log : List Jws) : Prop :=
  ∀ a msg sig, SigOk cr a m msg sig → ∃ l ∈ log, l.message cr = .ok msg

/-- C24: if signatures cannot be forged, a token accepted with an expected algorithm other than `none` has the header and
the payload of a JWS that was serialized with the key (`log` lists all of these). -/
theorem C24_integrity (cr : Crypto) (hf : FloatLaws cr.fe) (v : Val) (key : Jwk)
    (hk : Jwk.init cr v = .ok key) (log : List Jws)
    (hlog : ∀ l ∈ log, (Val.dict l.header.data).Wf ∧ ∃ w, JwsHeader.init w = .ok l.header)
    (hu : Unforgeable cr key.mat log) (tok : Bytes) (a : PyStr) (ha : a ≠ []) (hn : a ≠ py! "none")
    (j : Jws) (h : Jws.deserialize cr tok key (some a) true = .ok j) :
    ∃ l ∈ log, l.header = j.header ∧ l.payload = j.payload := by
  obtain ⟨hb, pb, sb, raw, w, hsplit, h1, h2, h3, -, -, h6⟩ := deserialize_ok.mp h
  obtain ⟨ht, hd1, hd2, hd3⟩ := split_token_inv hsplit
  obtain ⟨hb', pb', sb', -, sig, -, ht', -, -, -, -, -, hsig, -⟩ :=
    C20_expected_algorithm cr v key hk tok a ha hn j h
  have hmsg : ∃ l ∈ log, l.message cr = .ok (hb ++ 46 :: pb) := by
    obtain ⟨hb2, pb2, sb2, raw2, w2, hsplit2, -, -, h32, halg, h52, -⟩ := deserialize_ok.mp h
    rw [hsplit] at hsplit2
    simp only [List.cons.injEq, and_true] at hsplit2
    obtain ⟨rfl, rfl, rfl⟩ := hsplit2
    have hnn : j.header.alg ≠ .none := by
      intro h0
      cases a with
      | nil => exact ha rfl
      | cons c a =>
        simp only [algMatches, dget_of_get (header_alg h32), h0] at halg
        exact hn (Val.str.inj (pyEq_str.mp halg)).symm
    obtain ⟨sg, -, hs⟩ := sigOk_of_verify (keyInv_of_init hk) hnn (h52 rfl).2
    exact hu _ _ _ hs
  obtain ⟨l, hl, hm⟩ := hmsg
  refine ⟨l, hl, ?_⟩
  unfold Jws.message at hm
  split at hm
  · cases hm
  rename_i lb hlb
  have e := Except.ok.inj hm
  have e' := congrArg (splitOn 46) e
  rw [splitOn_append (no_dot _), splitOn_append hd1, splitOn_not_mem (no_dot _),
    splitOn_not_mem hd2] at e'
  simp only [List.cons.injEq, and_true] at e'
  obtain ⟨e1, e2⟩ := e'
  obtain ⟨hwf, w', hw'⟩ := hlog l hl
  rw [← e1, b64_roundtrip] at h1
  cases h1
  rw [header_reads_back hf hwf hlb] at h2
  cases h2
  rw [headerInit_idem hw'] at h3
  rw [← e2, b64_roundtrip] at h6
  exact ⟨Except.ok.inj h3, Except.ok.inj h6⟩

/-- An environment in which exactly one message verifies, and an accepted token in it. -/
example :
    let l : Jws := ⟨esHeader, by! "hello"⟩
    let cr : Crypto := { toyCrypto with
      ecVerify := fun _ _ _ _ m _ => decide (Except.ok m = l.message toyCrypto)
      hmac := fun _ _ _ => []
      rsaVerify := fun _ _ _ _ _ _ => .ok false }
    Unforgeable cr ecKey.mat [l] ∧
      ∃ tok, Jws.deserialize cr tok ecKey (some (py! "ES256")) true = .ok l := by
  intro l cr
  constructor
  · intro a msg sig hs
    refine ⟨l, by simp, ?_⟩
    cases hs with
    | es256 x y d msg sig h =>
      have := of_decide_eq_true h
      exact this.symm
  · refine ⟨b64urlEncode (by! "{\"alg\": \"ES256\"}") ++ 46 :: b64urlEncode (by! "hello") ++ [46], ?_⟩
    refine deserialize_ok.mpr ⟨_, _, _, _, .dict esHeader.data,
      split_token _ _ [] (no_dot _) (no_dot _) (by simp), b64_roundtrip _, ?_, rfl, rfl,
      fun _ => ⟨rfl, ?_⟩, b64_roundtrip _⟩
    · have : toStringB (by! "{\"alg\": \"ES256\"}") = py! "{\"alg\": \"ES256\"}" := by decide +kernel
      unfold jsonLoads
      rw [this]
      rfl
    · decide +kernel

/-! ## C25 -/

/-- C25 is false: malformed tokens make exceptions of other libraries escape, for every key. -/
theorem C25_malformed_refuted (cr : Crypto) (key : Jwk) (alg : Option PyStr) (val : Bool) :
    Jws.deserialize cr (by! "..") key alg val = .error .jsonDecode ∧
    Jws.deserialize cr (by! "A..") key alg val = .error .binascii ∧
    Jws.deserialize cr (b64urlEncode (by! "{\"alg\": []}") ++ by! "..") key alg val =
      .error .typeErr := by
  refine ⟨?_, rfl, ?_⟩
  · have : toStringB [] = [] := by decide +kernel
    unfold Jws.deserialize
    show (jsonLoads cr.fe [] >>= _) = _
    unfold jsonLoads
    rw [this]
    rfl
  · have : toStringB (by! "{\"alg\": []}") = py! "{\"alg\": []}" := by decide +kernel
    unfold Jws.deserialize
    rw [show splitOn 46 (b64urlEncode (by! "{\"alg\": []}") ++ by! "..") =
      [b64urlEncode (by! "{\"alg\": []}"), [], []] from by decide +kernel]
    simp only [b64_roundtrip, ok_bind]
    unfold jsonLoads
    rw [this]
    rfl

/-- C25, second half: a token without exactly two dots is always rejected with `InvalidJWSSerialization`. -/
theorem C25_dots (cr : Crypto) (key : Jwk) (alg : Option PyStr) (val : Bool) (tok : Bytes)
    (h : tok.count 46 ≠ 2) :
    Jws.deserialize cr tok key alg val = .error (.jose .invalidJWSSerialization) := by
  unfold Jws.deserialize
  split
  · rename_i heq
    have := splitOn_length 46 tok
    rw [heq] at this
    simp only [List.length_cons, List.length_nil] at this
    omega
  · rfl

example : (by! "a.b").count 46 ≠ 2 ∧ (by! "a.b.c.d").count 46 ≠ 2 := by decide

/-- C25, what holds about the exceptions: apart from errors of the RSA primitive, the escaping foreign exceptions are
exactly these: `binascii.Error` if the header or payload segment is not base64, `JSONDecodeError`
if the header is not JSON, `TypeError` if the header's `alg` is a list or a dictionary or the key's `key_ops` cannot be
iterated. In all other cases a failure is a `JoseError`. -/
theorem C25_malformed_partial (cr : Crypto) (v : Val) (key : Jwk) (hk : Jwk.init cr v = .ok key)
    (hrsa : ∀ n e pad hash msg sig ex, cr.rsaVerify n e pad hash msg sig ≠ .error ex)
    (tok : Bytes) (alg : Option PyStr) (val : Bool) (e : Exc)
    (h : Jws.deserialize cr tok key alg val = .error e) :
    e.isJose = true ∨ ∃ hb pb sb, tok = hb ++ 46 :: pb ++ 46 :: sb ∧
      ((e = .binascii ∧ (b64urlDecode hb = .error .binascii ∨ b64urlDecode pb = .error .binascii)) ∨
       (∃ raw, b64urlDecode hb = .ok raw ∧
         ((e = .jsonDecode ∧ jsonLoads cr.fe raw = .error .jsonDecode) ∨
          (e = .typeErr ∧ ∃ d x, jsonLoads cr.fe raw = .ok (.dict d) ∧
            Dict.get d (py! "alg") = some x ∧ (∃ l, x = .list l ∨ ∃ m, x = .dict m)))) ∨
       (e = .typeErr ∧ (dget key.data (py! "key_ops")).truthy = true ∧
        ∀ l m s, dget key.data (py! "key_ops") ≠ .list l ∧ dget key.data (py! "key_ops") ≠ .dict m ∧
          dget key.data (py! "key_ops") ≠ .str s)) := by
  unfold Jws.deserialize at h
  split at h
  · rename_i hb pb sb hsplit
    have ht := (split_token_inv hsplit).1
    rw [bind_error_iff] at h
    rcases h with h | ⟨raw, hraw, h⟩
    · have := b64urlDecode_error h
      subst this
      exact Or.inr ⟨hb, pb, sb, ht, Or.inl ⟨rfl, Or.inl h⟩⟩
    rw [bind_error_iff] at h
    rcases h with h | ⟨w, hw, h⟩
    · have := jsonLoads_error h
      subst this
      exact Or.inr ⟨hb, pb, sb, ht, Or.inr (Or.inl ⟨raw, hraw, Or.inl ⟨rfl, h⟩⟩)⟩
    rw [bind_error_iff] at h
    rcases h with h | ⟨hd, hhd, h⟩
    · rcases headerInit_error h with h | ⟨rfl, d, x, rfl, hx, hh⟩
      · exact Or.inl h
      · refine Or.inr ⟨hb, pb, sb, ht, Or.inr (Or.inl ⟨raw, hraw, Or.inr ⟨rfl, d, x, hw, hx, ?_⟩⟩)⟩
        cases x with
        | list l => exact ⟨l, Or.inl rfl⟩
        | dict m => exact ⟨[], Or.inr ⟨m, rfl⟩⟩
        | _ => simp [Val.hashable] at hh
    have pay : ∀ e, (b64urlDecode pb = .error e) → e = .binascii ∧
        b64urlDecode pb = .error .binascii := by
      intro e h
      have := b64urlDecode_error h
      subst this
      exact ⟨rfl, h⟩
    by_cases halg : algMatches alg hd = true
    · rw [halg] at h
      cases val with
      | false =>
        simp only [Bool.not_true, Bool.false_eq_true, if_false, bind_error_iff] at h
        rcases h with h | ⟨p, -, h⟩
        · obtain ⟨rfl, h⟩ := pay e h
          exact Or.inr ⟨hb, pb, sb, ht, Or.inl ⟨rfl, Or.inr h⟩⟩
        · cases h
      | true =>
        simp only [Bool.not_true, Bool.false_eq_true, if_false, if_true, bind_error_iff] at h
        rcases h with h | ⟨⟨⟩, -, h | ⟨⟨⟩, -, h | ⟨p, -, h⟩⟩⟩
        · rcases validateKey_error h with h | ⟨rfl, h1, e', h2⟩
          · exact Or.inl h
          · refine Or.inr ⟨hb, pb, sb, ht, Or.inr (Or.inr ⟨rfl, h1, ?_⟩)⟩
            intro l m s
            refine ⟨?_, ?_, ?_⟩ <;> intro h0 <;> rw [h0] at h2 <;> simp [iterVal] at h2
        · rcases algVerify_error' (keyInv_of_init hk) h with h | ⟨_, _, _, _, _, h⟩
          · exact Or.inl h
          · exact absurd h (hrsa _ _ _ _ _ _ _)
        · obtain ⟨rfl, h⟩ := pay e h
          exact Or.inr ⟨hb, pb, sb, ht, Or.inl ⟨rfl, Or.inr h⟩⟩
        · cases h
    · simp only [halg, Bool.not_false, if_true, throw_eq, error_bind, Except.error.injEq] at h
      subst h; exact Or.inl rfl
  · cases h; exact Or.inl rfl

/-- The toy primitives meet the hypothesis; a token with a bad header is rejected with a `JoseError`. -/
example : (∀ n e pad hash msg sig ex, toyCrypto.rsaVerify n e pad hash msg sig ≠ .error ex) ∧
    Jws.deserialize toyCrypto (by! "e30..") octKey none true = .error (.jose .invalidJWSHeader) := by
  refine ⟨(by intro n e pad hash msg sig ex h; simp [toyCrypto] at h), ?_⟩
  have : toStringB (by! "{}") = py! "{}" := by decide +kernel
  unfold Jws.deserialize
  show (jsonLoads _ (by! "{}") >>= _) = _
  unfold jsonLoads
  rw [this]
  rfl

/-! ## C26 -/

/-- The names of the registered algorithms are those of the specification. -/
theorem mem_supportedAlgs (s : PyStr) : s ∈ supportedAlgs ↔ ∃ a : JwsAlg, a.name = s := by
  constructor
  · intro h
    have h' : s ∈ JwsAlg.all.map JwsAlg.name := h
    obtain ⟨a, -, rfl⟩ := List.mem_map.mp h'
    exact ⟨a, rfl⟩
  · rintro ⟨a, rfl⟩
    show a.name ∈ JwsAlg.all.map JwsAlg.name
    have := List.mem_of_find?_eq_some (JwsAlg.ofName_name a)
    exact List.mem_map.mpr ⟨a, this, rfl⟩

/-- C26, first half: a header is accepted exactly when it meets the rules, and anything else than a dictionary is
refused. -/
theorem C26_header_validation (v : Val) :
    (∃ j, JwsHeader.init v = .ok j) ↔ ∃ h, v = .dict h ∧ HeaderOk h := by
  constructor
  · rintro ⟨j, hj⟩
    obtain ⟨h, rfl, -, ha, hc, h1, h2, h3⟩ := headerInit_ok.mp hj
    refine ⟨h, rfl, ⟨⟨_, (mem_supportedAlgs _).mpr ⟨_, rfl⟩, ha⟩, ?_, ?_⟩⟩
    · intro k hk v hv
      have : validateText h k = .ok () := by
        simp only [List.mem_cons, List.not_mem_nil, or_false] at hk
        rcases hk with rfl | rfl | rfl <;> assumption
      rcases validateText_ok.mp this with h0 | ⟨c, s, h0⟩
      · rw [h0] at hv; cases hv
      · rw [h0] at hv; cases hv; exact ⟨c, s, rfl⟩
    · intro v hv
      rcases validateCrit_ok.mp hc with h0 | ⟨l, hl, hne, hall⟩
      · rw [h0] at hv; cases hv
      · rw [hl] at hv; cases hv
        refine ⟨l, rfl, hne, ?_⟩
        intro i hi
        obtain ⟨c, s, rfl, ht⟩ := hall i hi
        refine ⟨⟨c, s, rfl⟩, c :: s, dget h (c :: s), rfl, get_of_dget rfl ?_, ht⟩
        intro h0; rw [h0] at ht; cases ht
  · rintro ⟨h, rfl, hok⟩
    obtain ⟨a, ha, hget⟩ := hok.alg
    obtain ⟨al, rfl⟩ := (mem_supportedAlgs a).mp ha
    have text : ∀ k ∈ [py! "kid", py! "typ", py! "cty"], validateText h k = .ok () := by
      intro k hk
      rw [validateText_ok]
      cases hg : Dict.get h k with
      | none => exact Or.inl rfl
      | some v =>
        obtain ⟨c, s, rfl⟩ := hok.text k hk v hg
        exact Or.inr ⟨c, s, rfl⟩
    refine ⟨⟨fullDict h, al⟩, headerInit_ok.mpr ⟨h, rfl, rfl, hget, ?_, text _ (by simp),
      text _ (by simp), text _ (by simp)⟩⟩
    rw [validateCrit_ok]
    cases hg : Dict.get h (py! "crit") with
    | none => exact Or.inl rfl
    | some v =>
      obtain ⟨l, rfl, hne, hall⟩ := hok.crit v hg
      refine Or.inr ⟨l, rfl, hne, ?_⟩
      intro i hi
      obtain ⟨⟨c, s, rfl⟩, n, w, hn, hw, ht⟩ := hall i hi
      cases hn
      exact ⟨c, s, rfl, by rw [dget_of_get hw]; exact ht⟩

/-- C26, second half, is false: any extension may be declared critical, the implementation understands none of them
and accepts the header. -/
theorem C26_crit_refuted (name : PyStr) (v : Val) (h0 : name ≠ []) (hv : v.truthy = true)
    (hn : name ∉ [py! "alg", py! "crit", py! "kid", py! "typ", py! "cty"]) :
    ∃ j, JwsHeader.init (.dict [(py! "alg", .str (py! "HS256")), (py! "crit", .list [.str name]),
      (name, v)]) = .ok j := by
  rw [C26_header_validation]
  simp only [List.mem_cons, List.not_mem_nil, or_false, not_or] at hn
  obtain ⟨h1, h2, h3, h4, h5⟩ := hn
  refine ⟨_, rfl, ⟨⟨py! "HS256", by decide, rfl⟩, ?_, ?_⟩⟩
  · intro k hk w hw
    simp only [List.mem_cons, List.not_mem_nil, or_false] at hk
    rcases hk with rfl | rfl | rfl <;>
      simp [Dict.get_cons, h3, h4, h5] at hw
  · intro w hw
    simp [Dict.get_cons] at hw
    subst hw
    refine ⟨_, rfl, by simp, ?_⟩
    intro i hi
    simp only [List.mem_singleton] at hi
    subst hi
    constructor
    · cases name with
      | nil => exact absurd rfl h0
      | cons c s => exact ⟨c, s, rfl⟩
    · exact ⟨name, v, rfl, by simp [Dict.get_cons, Ne.symm h1, Ne.symm h2], hv⟩

/-- The extension of RFC 7797, which the library says it does not support, accepted as critical. -/
example : (py! "b64") ≠ [] ∧ (Val.str (py! "x")).truthy = true ∧
    (py! "b64") ∉ [py! "alg", py! "crit", py! "kid", py! "typ", py! "cty"] := by decide

/-- A header with an undeclared critical name is refused. -/
example : JwsHeader.init (.dict [(py! "alg", .str (py! "HS256")), (py! "crit", .list [.str (py! "exp")])]) =
    .error (.jose .invalidJWSHeader) := rfl

/-! ## C27 -/

/-- C27 is false: a key that is only meant for verifying (`key_ops` is `["verify"]`) signs, and one that is only
meant for signing verifies. -/
theorem C27_key_ops_refuted :
    (∃ key tok, Jwk.init toyCrypto (.dict key.data) = .ok key ∧
      dget key.data (py! "key_ops") = .list [.str (py! "verify")] ∧
      Jws.serialize toyCrypto ⟨hsHeader, by! "hi"⟩ key 0 = .ok tok) ∧
    (∃ key tok j, Jwk.init toyCrypto (.dict key.data) = .ok key ∧
      dget key.data (py! "key_ops") = .list [.str (py! "sign")] ∧
      Jws.deserialize toyCrypto tok key (some (py! "HS256")) true = .ok j) := by
  constructor
  · exact ⟨⟨octKey.data ++ [(py! "key_ops", .list [.str (py! "verify")])], octKey.mat⟩, _, rfl, rfl,
      rfl⟩
  · exact ⟨⟨octKey.data ++ [(py! "key_ops", .list [.str (py! "sign")])], octKey.mat⟩, _, _, rfl, rfl,
      C19_jws_roundtrip toyCrypto toyFloat_laws (.dict hsHeader.data) hsHeader rfl
      (by simp [hsHeader, Val.Wf, Val.WfD]) (by! "hi") _ _ 0 _ rfl (toyCrypto_genuine _)
      (fun _ _ => rfl) _ (Or.inr ⟨_, rfl, rfl⟩)⟩

/-- The restrictions that are enforced by `_validate_key`. -/
structure KeyUsable (key : Jwk) (h : Dict PyStr Val) : Prop where
  use : (dget key.data (py! "use")).truthy = true → dget key.data (py! "use") = .str (py! "sig")
  kid : ∀ s, s ≠ [] → dget h (py! "kid") = .str s → dget key.data (py! "kid") = .str s
  ops : ∀ l, dget key.data (py! "key_ops") = .list l →
    ∀ o ∈ l, o = .str (py! "sign") ∨ o = .str (py! "verify")

theorem usable_of_validateKey {key : Jwk} {h : JwsHeader} (hv : validateKey key h = .ok ()) :
    KeyUsable key h.data := by
  unfold validateKey at hv
  simp only at hv
  split at hv
  · cases hv
  split at hv
  · cases hv
  rename_i hkid
  split at hv
  · cases hv
  rename_i huse
  refine ⟨?_, ?_, ?_⟩
  · intro ht
    rw [ht] at huse
    simp only [Bool.true_and, Bool.not_eq_true, Bool.not_eq_false'] at huse
    exact pyEq_str.mp huse
  · intro s hs hk
    rw [hk] at hkid
    have : (Val.str s).truthy = true := by
      cases s with
      | nil => exact absurd rfl hs
      | cons => rfl
    rw [this] at hkid
    simp only [Bool.true_and, Bool.not_eq_true, Bool.not_eq_false'] at hkid
    exact pyEq_str.mp hkid
  · intro l hl o ho
    rw [hl] at hv
    have : (Val.list l).truthy = true := by
      cases l with
      | nil => simp at ho
      | cons => rfl
    rw [if_pos this] at hv
    simp only [iterVal] at hv
    split at hv
    · cases hv
    · rename_i hany
      simp only [List.any_eq_true, not_exists, not_and, Bool.not_eq_true, Bool.not_eq_false'] at hany
      have := hany o ho
      simp only [Val.inList, List.any_cons, List.any_nil, Bool.or_false, Bool.or_eq_true] at this
      rcases this with h | h
      · left; exact pyEq_str_left.mp h
      · right; exact pyEq_str_left.mp h

/-- C27, what holds: a key is only used if its `use` is empty or `sig`, if its `kid` is the one named by the header, and
if its `key_ops` list has no other operation than `sign` and `verify`; for both directions. Missing: the operation
performed need not be one of the permitted ones (see the refutation above). -/
theorem C27_key_usage_partial (cr : Crypto) (key : Jwk) :
    (∀ tok alg j, Jws.deserialize cr tok key alg true = .ok j → KeyUsable key j.header.data) ∧
    (∀ h payload seed tok, Jws.serialize cr ⟨h, payload⟩ key seed = .ok tok →
      KeyUsable key h.data) := by
  constructor
  · intro tok alg j h
    obtain ⟨_, _, _, _, _, -, -, -, -, -, h5, -⟩ := deserialize_ok.mp h
    exact usable_of_validateKey (h5 rfl).1
  · intro h payload seed tok hs
    obtain ⟨_, _, h1, -⟩ := serialize_ok.mp hs
    exact usable_of_validateKey h1

/-- A key for encryption is refused, a key for signatures is not. -/
example :
    Jws.serialize toyCrypto ⟨hsHeader, []⟩ ⟨octKey.data ++ [(py! "use", .str (py! "enc"))], octKey.mat⟩ 0 =
      .error (.jose .invalidKey) ∧
    ∃ t, Jws.serialize toyCrypto ⟨hsHeader, []⟩
      ⟨octKey.data ++ [(py! "use", .str (py! "sig"))], octKey.mat⟩ 0 = .ok t := ⟨rfl, _, rfl⟩

end Psion.Props
