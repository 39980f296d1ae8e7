import Verif.Props.JwsExact
import Verif.Jose.Rfc7518Lemmas
import Verif.Jose.DumpLemmas

/-!
# Property C99: signatures have the form that RFC 7518 prescribes
-/

namespace Psion.Props

open Psion Psion.Spec

/-- The token that is accepted, by C79, when the algorithm is not `none`. -/
theorem accepted_parts {cr : Crypto} {v : Val} {key : Jwk} (hk : Jwk.init cr v = .ok key) {tok : Bytes} {alg : Option PyStr} {j : Jws}
    (h : Jws.deserialize cr tok key alg true = .ok j) {a : PyStr} (hn : a ≠ py! "none") {hb pb sb raw : Bytes} {hd : Dict PyStr Val}
    (ht : tok = hb ++ by! "." ++ pb ++ by! "." ++ sb) (h1 : 46 ∉ hb) (h2 : 46 ∉ pb) (h3 : 46 ∉ sb)
    (hraw : b64urlDecode hb = .ok raw) (hhd : jsonLoads cr.fe raw = .ok (.dict hd)) (ha : Dict.get hd (py! "alg") = some (.str a)) :
    ∃ sig, b64urlDecode sb = .ok sig ∧ SigOk cr a key.mat (hb ++ by! "." ++ pb) sig := by
  obtain ⟨hb', pb', sb', raw', hd', a', ht', e1, e2, e3, hraw', hhd', -, -, ha', -, -, hs, -⟩ :=
    (C79_deserialize cr v key hk tok alg j.header.data j.payload).mp ⟨j, h, rfl, rfl⟩
  have hsp := split_token hb pb sb h1 h2 h3
  have hsp' := split_token hb' pb' sb' e1 e2 e3
  rw [ht] at ht'
  have heq : [hb, pb, sb] = [hb', pb', sb'] := by
    rw [← hsp, ← hsp']
    congr 1
    simpa using ht'
  simp only [List.cons.injEq, and_true] at heq
  obtain ⟨rfl, rfl, rfl⟩ := heq
  rw [hraw] at hraw'
  cases hraw'
  rw [hhd] at hhd'
  cases hhd'
  rw [ha] at ha'
  cases ha'
  rcases hs with hs | hs
  · exact absurd hs hn
  · exact hs

/-- The algorithms that are HMAC or RSASSA-PKCS1-v1_5. -/
def plainAlgs : List PyStr := [py! "HS256", py! "HS384", py! "HS512", py! "RS256", py! "RS384", py! "RS512"]

theorem sigOk_plain {ar : Arith} {cr : Crypto} (hd : Documented ar cr) {a : PyStr} (ha : a ∈ plainAlgs) {m : Material} {msg sig : Bytes} :
    SigOk cr a m msg sig ↔ RfcSig ar a m msg sig := by
  constructor
  · intro h
    cases h with
    | hs256 s => rw [hd.hmac]; exact .hs256 ..
    | hs384 s => rw [hd.hmac]; exact .hs384 ..
    | hs512 s => rw [hd.hmac]; exact .hs512 ..
    | rs256 n e p _ _ h => rw [hd.pkcsVerify] at h; exact .rs256 _ _ _ _ _ h
    | rs384 n e p _ _ h => rw [hd.pkcsVerify] at h; exact .rs384 _ _ _ _ _ h
    | rs512 n e p _ _ h => rw [hd.pkcsVerify] at h; exact .rs512 _ _ _ _ _ h
    | _ => exact absurd ha (by decide)
  · intro h
    cases h with
    | hs256 s => rw [← hd.hmac]; exact .hs256 ..
    | hs384 s => rw [← hd.hmac]; exact .hs384 ..
    | hs512 s => rw [← hd.hmac]; exact .hs512 ..
    | rs256 n e p _ _ h => rw [← hd.pkcsVerify] at h; exact .rs256 _ _ _ _ _ h
    | rs384 n e p _ _ h => rw [← hd.pkcsVerify] at h; exact .rs384 _ _ _ _ _ h
    | rs512 n e p _ _ h => rw [← hd.pkcsVerify] at h; exact .rs512 _ _ _ _ _ h
    | _ => exact absurd ha (by decide)

/-- C99, the part that holds: under HMAC and RSASSA-PKCS1-v1_5 exactly the tokens of RFC 7515 and 7518 are accepted. -/
theorem C99_accept_partial (ar : Arith) (cr : Crypto) (hd : Documented ar cr) (v : Val) (key : Jwk) (hk : Jwk.init cr v = .ok key)
    (a : PyStr) (ha : a ∈ plainAlgs) (tok : Bytes) (header : Dict PyStr Val) (payload : Bytes) :
    (∃ j, Jws.deserialize cr tok key (some a) true = .ok j ∧ j.header.data = header ∧ j.payload = payload) ↔
      RfcToken ar cr.fe key a tok header payload := by
  have hn : a ≠ py! "none" := by rintro rfl; exact absurd ha (by decide)
  rw [C79_deserialize cr v key hk]
  constructor
  · rintro ⟨hb, pb, sb, raw, hdr, a', h1, h2, h3, h4, h5, h6, h7, h8, h9, h10, h11, h12, h13⟩
    have e : a' = a := by
      rcases h10 with h | h | h
      · cases h
      · cases h; exact absurd ha (by decide)
      · cases h; rfl
    subst e
    rcases h12 with h | ⟨sig, hs1, hs2⟩
    · exact absurd h hn
    · exact ⟨hb, pb, sb, raw, hdr, sig, h1, h2, h3, h4, h5, h6, h7, h8, h9, h11, h13, hs1, (sigOk_plain hd ha).mp hs2⟩
  · rintro ⟨hb, pb, sb, raw, hdr, sig, h1, h2, h3, h4, h5, h6, h7, h8, h9, h11, h13, hs1, hs2⟩
    exact ⟨hb, pb, sb, raw, hdr, a, h1, h2, h3, h4, h5, h6, h7, h8, h9, Or.inr (Or.inr rfl), h11,
      Or.inr ⟨sig, hs1, (sigOk_plain hd ha).mpr hs2⟩, h13⟩

/-- C99, the part that holds: under HMAC and RSASSA-PKCS1-v1_5 the signature of every token that is made is one of RFC 7518. -/
theorem C99_sign_partial (ar : Arith) (cr : Crypto) (hd : Documented ar cr) (hv : Val) (h : JwsHeader)
    (hh : JwsHeader.init hv = .ok h) (a : PyStr) (ha : dget h.data (py! "alg") = .str a) (hp : a ∈ plainAlgs) (v : Val) (key : Jwk)
    (hk : Jwk.init cr v = .ok key) (hl : ArithLaws ar key.mat) (payload : Bytes) (seed : Nat) (tok : Bytes)
    (ht : Jws.serialize cr ⟨h, payload⟩ key seed = .ok tok) :
    ∃ hb sig, utf8Encode (jsonDumps cr.fe (.dict h.data)) = .ok hb ∧
      tok = b64urlEncode hb ++ by! "." ++ b64urlEncode payload ++ by! "." ++ b64urlEncode sig ∧
      RfcSig ar a key.mat (b64urlEncode hb ++ by! "." ++ b64urlEncode payload) sig := by
  obtain ⟨-, hb, msg, sig, h1, rfl, h3, h4⟩ := (C79_serialize cr hv h hh a ha v key hk payload seed tok).mp ht
  refine ⟨hb, sig, h1, h3, ?_⟩
  rcases h4 with ⟨h4, -⟩ | h4
  · subst h4; exact absurd hp (by decide)
  · generalize key.mat = m at h4 hl ⊢
    cases h4 with
    | hs256 s => rw [hd.hmac]; exact .hs256 ..
    | hs384 s => rw [hd.hmac]; exact .hs384 ..
    | hs512 s => rw [hd.hmac]; exact .hs512 ..
    | rs256 n e p _ _ h => rw [hd.pkcsSign] at h; exact .rs256 _ _ _ _ _ (hl.pkcs _ _ _ _ _ _ _ rfl h)
    | rs384 n e p _ _ h => rw [hd.pkcsSign] at h; exact .rs384 _ _ _ _ _ (hl.pkcs _ _ _ _ _ _ _ rfl h)
    | rs512 n e p _ _ h => rw [hd.pkcsSign] at h; exact .rs512 _ _ _ _ _ (hl.pkcs _ _ _ _ _ _ _ rfl h)
    | _ => exact absurd hp (by decide)

/-- C99 fails for ECDSA. A token after RFC 7518 is refused unless the first octet of its signature happens to be 48, the mark of a DER
sequence; with ES512 it is always refused. -/
theorem C99_ecdsa_refuted (ar : Arith) (cr : Crypto) (hd : Documented ar cr) (v : Val) (key : Jwk) (hk : Jwk.init cr v = .ok key)
    (tok : Bytes) (header : Dict PyStr Val) (payload : Bytes) (alg : Option PyStr) :
    (RfcToken ar cr.fe key (py! "ES512") tok header payload → ∀ j, Jws.deserialize cr tok key alg true ≠ .ok j) ∧
    (∀ a ∈ [py! "ES256", py! "ES384"], RfcToken ar cr.fe key a tok header payload →
      ∀ j, Jws.deserialize cr tok key alg true = .ok j →
        ∃ hb pb sb sig, tok = hb ++ by! "." ++ pb ++ by! "." ++ sb ∧ 46 ∉ sb ∧ b64urlDecode sb = .ok sig ∧ sig.head? = some 48) := by
  have key : ∀ a ∈ [py! "ES256", py! "ES384", py! "ES512"], RfcToken ar cr.fe key a tok header payload →
      ∀ j, Jws.deserialize cr tok key alg true = .ok j → ∃ hb pb sb sig, tok = hb ++ by! "." ++ pb ++ by! "." ++ sb ∧ 46 ∉ sb ∧
        b64urlDecode sb = .ok sig ∧ sig.head? = some 48 ∧ RfcSig ar a key.mat (hb ++ by! "." ++ pb) sig := by
    rintro a ha ⟨hb, pb, sb, raw, hdr, sig, h1, h2, h3, h4, h5, h6, h7, h8, h9, h11, h13, hs1, hs2⟩ j hj
    obtain ⟨sig', hs', hok⟩ := accepted_parts hk hj (a := a) (by rintro rfl; exact absurd ha (by decide)) h1 h2 h3 h4 h5 h6 h9
    rw [hs1] at hs'
    cases hs'
    refine ⟨hb, pb, sb, sig, h1, h4, hs1, ?_, hs2⟩
    have first : ∀ {c x y h}, cr.ecVerify c x y h (hb ++ by! "." ++ pb) sig = true → sig.head? = some 48 := by
      intro c x y h hx
      obtain ⟨r, s, rfl, -⟩ := (hd.ecVerify ..).mp hx
      exact derSig_first r s
    generalize key.mat = m at hok
    cases hok with
    | es256 _ _ _ _ _ h => exact first h
    | es384 _ _ _ _ _ h => exact first h
    | es512 _ _ _ _ _ h => exact first h
    | _ => exact absurd ha (by decide)
  constructor
  · intro ht j hj
    obtain ⟨hb, pb, sb, sig, -, -, -, hf, hs⟩ := key _ (by simp) ht j hj
    generalize hm : Jwk.mat _ = m at hs
    cases hs with
    | es512 x y d _ r s hr hs h =>
      obtain ⟨rest, he⟩ := octets_head 65 r (by omega)
      rw [he] at hf
      have hlt : r / 256 ^ 65 < 2 := Nat.div_lt_of_lt_mul (by omega)
      have : r / 256 ^ 65 = 0 ∨ r / 256 ^ 65 = 1 := by omega
      rcases this with h | h <;> rw [h] at hf <;> simp [byte] at hf <;> exact absurd hf (by decide)
  · intro a ha ht j hj
    obtain ⟨hb, pb, sb, sig, h1, h2, h3, hf, -⟩ := key a (by simp only [List.mem_cons, List.not_mem_nil, or_false] at ha ⊢; exact ha.elim Or.inl (fun h => Or.inr (Or.inl h))) ht j hj
    exact ⟨hb, pb, sb, sig, h1, h2, h3, hf⟩

/-- Number of octets of a coordinate of the curve of an ECDSA algorithm. -/
def coordinate (a : PyStr) : Nat :=
  if a = py! "ES256" then 32 else if a = py! "ES384" then 48 else 66

/-- C99 fails for ECDSA, signing: unless one of the two numbers happens to be short by more than two octets, the signature that is made is
longer than the one of RFC 7518. -/
theorem C99_ecdsa_sign_refuted (ar : Arith) (cr : Crypto) (hd : Documented ar cr) (hv : Val) (h : JwsHeader)
    (hh : JwsHeader.init hv = .ok h) (a : PyStr) (ha : dget h.data (py! "alg") = .str a)
    (hes : a ∈ [py! "ES256", py! "ES384", py! "ES512"]) (v : Val) (key : Jwk) (hk : Jwk.init cr v = .ok key) (payload : Bytes)
    (seed : Nat) (tok : Bytes) (ht : Jws.serialize cr ⟨h, payload⟩ key seed = .ok tok) :
    ∃ msg r s, tok = msg ++ by! "." ++ b64urlEncode (derSig r s) ∧
      (256 ^ (coordinate a - 3) ≤ r → 256 ^ (coordinate a - 3) ≤ s →
        2 * coordinate a < (derSig r s).length ∧ ∀ m msg', ¬ RfcSig ar a m msg' (derSig r s)) := by
  obtain ⟨-, hb, msg, sig, h1, h2, h3, h4⟩ := (C79_serialize cr hv h hh a ha v key hk payload seed tok).mp ht
  have hder : ∃ r s, sig = derSig r s := by
    rcases h4 with ⟨h4, -⟩ | h4
    · subst h4; exact absurd hes (by decide)
    · generalize key.mat = m at h4
      cases h4 with
      | es256 x y d => exact ⟨_, _, hd.ecSign ..⟩
      | es384 x y d => exact ⟨_, _, hd.ecSign ..⟩
      | es512 x y d => exact ⟨_, _, hd.ecSign ..⟩
      | _ => exact absurd hes (by decide)
  obtain ⟨r, s, rfl⟩ := hder
  refine ⟨msg, r, s, h3, fun hr hs => ?_⟩
  have hc : 3 ≤ coordinate a := by
    simp only [coordinate]
    split
    · omega
    · split <;> omega
  have hlen : 2 * coordinate a < (derSig r s).length := by
    have := derSig_length r s
    have := bits_ge hr
    have := bits_ge hs
    omega
  refine ⟨hlen, ?_⟩
  intro m msg' hx
  generalize derSig r s = sig at hlen hx
  cases hx with
  | es256 => simp only [List.length_append, octets_length] at hlen; exact absurd hlen (by decide)
  | es384 => simp only [List.length_append, octets_length] at hlen; exact absurd hlen (by decide)
  | es512 => simp only [List.length_append, octets_length] at hlen; exact absurd hlen (by decide)
  | _ => exact absurd hes (by decide)

/-- C99 fails for RSASSA-PSS: with a modulus of 2048 bits or more no token after RFC 7518 is accepted, and no signature that is made is one
of RFC 7518. -/
theorem C99_pss_refuted (ar : Arith) (cr : Crypto) (hd : Documented ar cr) (v : Val) (key : Jwk)
    (hk : Jwk.init cr v = .ok key) (hl : ArithLaws ar key.mat) (n e : Nat) (p : Option RsaPriv) (hm : key.mat = .rsa n e p) (hn : 2 ^ 2047 ≤ n)
    (a : PyStr) (hps : a ∈ [py! "PS256", py! "PS384", py! "PS512"]) :
    (∀ tok header payload alg, RfcToken ar cr.fe key a tok header payload → ∀ j, Jws.deserialize cr tok key alg true ≠ .ok j) ∧
    (∀ hv h payload seed tok, JwsHeader.init hv = .ok h → dget h.data (py! "alg") = .str a →
      Jws.serialize cr ⟨h, payload⟩ key seed = .ok tok →
      ∃ msg sig, tok = msg ++ by! "." ++ b64urlEncode sig ∧ ¬ RfcSig ar a key.mat msg sig) := by
  have hsalt : ∀ h, maxSalt n h ≠ digestSize h := by
    intro h
    have h0 : n ≠ 0 := by
      have := Nat.pow_pos (n := 2047) (show 0 < 2 by decide)
      omega
    have := (Nat.le_log2 h0).mpr hn
    clear hn
    unfold maxSalt bits
    rw [if_neg h0]
    cases h <;> simp only [digestSize] <;> omega
  constructor
  · rintro tok header payload alg ⟨hb, pb, sb, raw, hdr, sig, h1, h2, h3, h4, h5, h6, h7, h8, h9, h11, h13, hs1, hs2⟩ j hj
    obtain ⟨sig', hs', hok⟩ := accepted_parts hk hj (a := a) (by rintro rfl; exact absurd hps (by decide)) h1 h2 h3 h4 h5 h6 h9
    rw [hs1] at hs'
    cases hs'
    rw [hm] at hok hs2
    cases hok with
    | ps256 _ _ _ _ _ h =>
      cases hs2 with | ps256 _ _ _ _ _ h' => rw [hd.pssVerify] at h; exact hsalt .sha256 (hl.salt _ _ _ _ _ _ _ h h')
    | ps384 _ _ _ _ _ h =>
      cases hs2 with | ps384 _ _ _ _ _ h' => rw [hd.pssVerify] at h; exact hsalt .sha384 (hl.salt _ _ _ _ _ _ _ h h')
    | ps512 _ _ _ _ _ h =>
      cases hs2 with | ps512 _ _ _ _ _ h' => rw [hd.pssVerify] at h; exact hsalt .sha512 (hl.salt _ _ _ _ _ _ _ h h')
    | _ => exact absurd hps (by decide)
  · intro hv h payload seed tok hh ha ht
    obtain ⟨-, hb, msg, sig, h1, h2, h3, h4⟩ := (C79_serialize cr hv h hh a ha v key hk payload seed tok).mp ht
    refine ⟨msg, sig, h3, ?_⟩
    intro hs
    rcases h4 with ⟨h4, -⟩ | h4
    · subst h4; exact absurd hps (by decide)
    · rw [hm] at h4 hs
      cases h4 with
      | ps256 _ _ _ _ _ h =>
        rw [hd.pssSign] at h
        cases hs with | ps256 _ _ _ _ _ h' => exact hsalt .sha256 (hl.salt _ _ _ _ _ _ _ (hl.pss _ _ _ _ _ _ _ _ hm h) h')
      | ps384 _ _ _ _ _ h =>
        rw [hd.pssSign] at h
        cases hs with | ps384 _ _ _ _ _ h' => exact hsalt .sha384 (hl.salt _ _ _ _ _ _ _ (hl.pss _ _ _ _ _ _ _ _ hm h) h')
      | ps512 _ _ _ _ _ h =>
        rw [hd.pssSign] at h
        cases hs with | ps512 _ _ _ _ _ h' => exact hsalt .sha512 (hl.salt _ _ _ _ _ _ _ (hl.pss _ _ _ _ _ _ _ _ hm h) h')
      | _ => exact absurd hps (by decide)

/-! ### Concrete cases -/

/-- Toy arithmetic in which the operations differ by their parameters. -/
def rfcArith : Arith where
  hmac := toyCrypto.hmac
  ecNumbers _ _ _ _ _ _ _ := (2 ^ 255, 2 ^ 255)
  ecHolds _ _ _ _ _ r s := r == 2 ^ 255 && s == 2 ^ 255
  pkcsSign n e p h m seed := toyCrypto.rsaSign n e p .pkcs1v15 h m seed
  pkcsHolds n e h m sig := toyCrypto.rsaVerify n e .pkcs1v15 h m sig
  pssSign _ _ _ _ l m _ := .ok (List.replicate l 0 ++ 1 :: m)
  pssHolds _ _ _ l m sig := .ok (sig == List.replicate l 0 ++ 1 :: m)

/-- Toy primitives that work as `cryptography` documents. -/
def rfcCrypto : Crypto :=
  { toyCrypto with
    ecSign := fun _ _ _ _ _ _ _ => derSig (2 ^ 255) (2 ^ 255)
    ecVerify := fun _ _ _ _ _ sig => sig == derSig (2 ^ 255) (2 ^ 255)
    rsaSign := fun n e p pad h m seed => match pad with
      | .pkcs1v15 => rfcArith.pkcsSign n e p h m seed
      | .pss => rfcArith.pssSign n e p h (maxSalt n h) m seed
    rsaVerify := fun n e pad h m sig => match pad with
      | .pkcs1v15 => rfcArith.pkcsHolds n e h m sig
      | .pss => rfcArith.pssHolds n e h (maxSalt n h) m sig }

theorem rfcCrypto_documented : Documented rfcArith rfcCrypto where
  hmac _ _ _ := rfl
  ecSign _ _ _ _ _ _ _ := rfl
  ecVerify _ _ _ _ _ sig := by
    constructor
    · intro h
      exact ⟨_, _, eq_of_beq h, rfl⟩
    · rintro ⟨r, s, rfl, h⟩
      simp only [rfcArith, Bool.and_eq_true, beq_iff_eq] at h
      rw [h.1, h.2]
      simp [rfcCrypto]
  pkcsSign _ _ _ _ _ _ := rfl
  pkcsVerify _ _ _ _ _ := rfl
  pssSign _ _ _ _ _ _ := rfl
  pssVerify _ _ _ _ _ := rfl

theorem rfcArith_laws (m : Material) : ArithLaws rfcArith m where
  pkcs n e p h m seed sig _ hs := by
    simp only [rfcArith, toyCrypto, Except.ok.injEq] at hs ⊢
    subst hs
    simp
  pss n e p h l m seed sig _ hs := by
    simp only [rfcArith, Except.ok.injEq] at hs ⊢
    subst hs
    simp
  salt n e h l l' m sig h1 h2 := by
    simp only [rfcArith, Except.ok.injEq, beq_iff_eq] at h1 h2
    have := congrArg List.length (h1.symm.trans h2)
    simpa using this

/-- A key on P-521. -/
def p521Key : Jwk :=
  ⟨[(py! "kty", .str (py! "EC")), (py! "crv", .str (py! "P-521")), (py! "x", .str (py! "BQ")),
    (py! "y", .str (py! "BQ")), (py! "d", .str (py! "BQ"))], .ec .p521 5 5 (some 5)⟩

def es512Token : Bytes :=
  b64urlEncode (by! "{\"alg\": \"ES512\"}") ++ by! "." ++ b64urlEncode (by! "hi") ++ by! "." ++
    b64urlEncode (octets 66 (2 ^ 255) ++ octets 66 (2 ^ 255))

theorem p521_small : (2 : Nat) ^ 255 < 2 ^ 521 := Nat.pow_lt_pow_right (by decide) (by decide)

theorem es512Token_rfc : RfcToken rfcArith rfcCrypto.fe p521Key (py! "ES512") es512Token [(py! "alg", .str (py! "ES512"))] (by! "hi") :=
  ⟨_, _, _, by! "{\"alg\": \"ES512\"}", [(py! "alg", .str (py! "ES512"))], _, rfl, no_dot _, no_dot _, no_dot _, b64_roundtrip _,
    header_reads_back (h := ⟨_, .es .sha512⟩) toyFloat_laws (by simp [Val.Wf, Val.WfD]) rfl, ⟨⟨_, by decide, rfl⟩, by simp [Dict.get], by simp [Dict.get]⟩, rfl, rfl,
    ⟨Or.inl rfl, Or.inl rfl, Or.inl rfl, Or.inl rfl⟩, b64_roundtrip _, b64_roundtrip _, .es512 _ _ _ _ _ _ p521_small p521_small rfl⟩

/-- A token that RFC 7518 prescribes, and that is refused. -/
example : ∀ j, Jws.deserialize rfcCrypto es512Token p521Key (some (py! "ES512")) true ≠ .ok j :=
  (C99_ecdsa_refuted rfcArith rfcCrypto rfcCrypto_documented (.dict p521Key.data) p521Key rfl _ _ _ _).1 es512Token_rfc

/-- The library signs with this key; the signature has 72 octets. -/
example : Jws.serialize rfcCrypto ⟨⟨[(py! "alg", .str (py! "ES256"))], .es .sha256⟩, by! "hi"⟩ ecKey 0 =
    .ok (b64urlEncode (by! "{\"alg\": \"ES256\"}") ++ by! "." ++ b64urlEncode (by! "hi") ++ by! "." ++
      b64urlEncode (derSig (2 ^ 255) (2 ^ 255))) ∧ (derSig (2 ^ 255) (2 ^ 255)).length = 72 := by
  refine ⟨?_, by decide +kernel⟩
  rfl

/-- A modulus of 2048 bits. -/
def bigRsa (n : Nat) : Jwk := ⟨[(py! "kty", .str (py! "RSA")), (py! "n", numVal n), (py! "e", numVal 3)], .rsa n 3 none⟩

theorem bigRsa_init {n : Nat} (h : 0 < n) : Jwk.init rfcCrypto (.dict (bigRsa n).data) = .ok (bigRsa n) := by
  refine jwkInit_ok.mpr ⟨_, rfl, rfl, rfl, ?_⟩
  refine rsaInit_canon rfl rfl rfl h (by decide) ?_ (Or.inl ⟨rfl, rfl⟩)
  have : n ≠ 0 := by omega
  simp [rfcCrypto, toyCrypto, this]

/-- A PS256 token after RFC 7518 under a key of 2048 bits, refused. -/
example (n : Nat) (hn : 2 ^ 2047 ≤ n) : ∃ tok header payload, RfcToken rfcArith rfcCrypto.fe (bigRsa n) (py! "PS256") tok header payload ∧
    ∀ j, Jws.deserialize rfcCrypto tok (bigRsa n) (some (py! "PS256")) true ≠ .ok j := by
  have h0 : 0 < n := by
    have := Nat.pow_pos (n := 2047) (show 0 < 2 by decide)
    omega
  have ht : RfcToken rfcArith rfcCrypto.fe (bigRsa n) (py! "PS256") (b64urlEncode (by! "{\"alg\": \"PS256\"}") ++ by! "." ++
      b64urlEncode (by! "hi") ++ by! "." ++ b64urlEncode (List.replicate 32 0 ++ 1 :: (b64urlEncode (by! "{\"alg\": \"PS256\"}") ++
      by! "." ++ b64urlEncode (by! "hi")))) [(py! "alg", .str (py! "PS256"))] (by! "hi") :=
    ⟨_, _, _, by! "{\"alg\": \"PS256\"}", [(py! "alg", .str (py! "PS256"))], _, rfl, no_dot _, no_dot _, no_dot _, b64_roundtrip _,
      header_reads_back (h := ⟨_, .ps .sha256⟩) toyFloat_laws (by simp [Val.Wf, Val.WfD]) rfl, ⟨⟨_, by decide, rfl⟩, by simp [Dict.get], by simp [Dict.get]⟩, rfl, rfl,
      ⟨Or.inl rfl, Or.inl rfl, Or.inl rfl, Or.inl rfl⟩, b64_roundtrip _, b64_roundtrip _, .ps256 _ _ _ _ _ (by simp [rfcArith])⟩
  exact ⟨_, _, _, ht, (C99_pss_refuted rfcArith rfcCrypto rfcCrypto_documented _ _ (bigRsa_init h0) (rfcArith_laws _) n 3 none rfl hn _
    (by simp)).1 _ _ _ _ ht⟩

/-- With HS256 the tokens of RFC 7518 are accepted. -/
example (tok : Bytes) (h : Jws.serialize rfcCrypto ⟨boundHeader, by! "hi"⟩ boundKey 0 = .ok tok) :
    ∃ hb sig, tok = b64urlEncode hb ++ by! "." ++ b64urlEncode (by! "hi") ++ by! "." ++ b64urlEncode sig ∧
      RfcSig rfcArith (py! "HS256") boundKey.mat (b64urlEncode hb ++ by! "." ++ b64urlEncode (by! "hi")) sig := by
  obtain ⟨hb, sig, -, h1, h2⟩ := C99_sign_partial rfcArith rfcCrypto rfcCrypto_documented (.dict boundHeader.data) boundHeader
    rfl (py! "HS256") rfl (by decide) (.dict boundKey.data) boundKey rfl (rfcArith_laws _) _ _ _ h
  exact ⟨hb, sig, h1, h2⟩

end Psion.Props
