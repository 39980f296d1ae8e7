import Verif.Props.Real
import Verif.Props.KeyText
import Verif.Real.CurveOrder

/-!
# Properties C120, C121: the keys and signatures of ECDSA are those of FIPS 186-4; tokens can be rewritten

The group is the one of Mathlib, the operations of the package `cryptography` are the algorithms themselves (`Real.crypto`).
-/

namespace Psion.Props

open Psion Psion.Spec

/-- C120: the numbers of an EC key that is loaded are those of a point of the curve, and the private number belongs to it. -/
theorem C120_loaded (v : Val) (key : Jwk) (hk : Jwk.init Real.crypto v = .ok key) (c : Curve) (x y : Nat) (d : Option Nat)
    (hm : key.mat = .ec c x y d) : (∃ Q : (ecCurve c).Point, OnAt Q x y) ∧ ∀ n, d = some n → EcKey c x y n := by
  have hval := valid_of_init hk
  rw [hm] at hval
  exact ⟨(Real.on_iff c x y).mp hval.1, fun n hn => (Real.priv_iff c x y n).mp (hval.2 n hn)⟩

/-- C120: every key pair of FIPS 186-4 is loaded from its members as RFC 7518 writes them, and so is its public key. -/
theorem C120_loads (c : Curve) (x y n : Nat) (h : EcKey c x y n) :
    (∃ key, Jwk.init Real.crypto (.dict [(py! "kty", .str (py! "EC")), (py! "crv", .str c.name), (py! "x", octetText (coordinateSize c) x),
      (py! "y", octetText (coordinateSize c) y), (py! "d", octetText (coordinateSize c) n)]) = .ok key ∧ key.mat = .ec c x y (some n)) ∧
    ∃ key, Jwk.init Real.crypto (.dict [(py! "kty", .str (py! "EC")), (py! "crv", .str c.name), (py! "x", octetText (coordinateSize c) x),
      (py! "y", octetText (coordinateSize c) y)]) = .ok key ∧ key.mat = .ec c x y none := by
  obtain ⟨G, -, hQ⟩ := id h.point
  have hp : Real.crypto.ecPubOk c x y = true := (Real.on_iff c x y).mpr ⟨_, hQ⟩
  have hs : (Real.domain c).p ≤ 256 ^ coordinateSize c ∧ (Real.domain c).n ≤ 256 ^ coordinateSize c := by cases c <;> decide +kernel
  have hx := Nat.lt_of_lt_of_le hQ.1 hs.1
  have hy := Nat.lt_of_lt_of_le hQ.2.1 hs.1
  have hn := Nat.lt_of_lt_of_le h.lt hs.2
  exact ⟨C101_load Real.crypto c x y (some n) hx hy (by rintro _ ⟨⟩; exact ⟨hn, (Real.priv_iff c x y n).mpr h⟩) hp _ (by simp [Dict.get])
      (by simp [Dict.get]) (by simp [Dict.get]) (by simp [Dict.get]) (by simp [Dict.get]) (by simp [Dict.get]),
    C101_load Real.crypto c x y none hx hy nofun hp _ (by simp [Dict.get])
      (by simp [Dict.get]) (by simp [Dict.get]) (by simp [Dict.get]) (by simp [Dict.get]) (by simp [Dict.get])⟩

/-- The algorithms of ECDSA. -/
def ecdsaAlgs : List PyStr := [py! "ES256", py! "ES384", py! "ES512"]

theorem sigOk_ecdsa {a : PyStr} (ha : a ∈ ecdsaAlgs) {m : Material} (hv : m.Valid Real.crypto) {msg sig : Bytes} :
    SigOk Real.crypto a m msg sig ↔ EcdsaSig a m msg sig := by
  have key {c x y h} (hc : Real.crypto.ecPubOk c x y = true) : Real.crypto.ecVerify c x y h msg sig = true ↔
      ∃ r s, sig = derSig r s ∧ EcdsaValid c x y h msg r s := by
    obtain ⟨Q, hQ⟩ := (Real.on_iff c x y).mp hc
    rw [Real.documented.ecVerify]
    exact exists_congr fun r => exists_congr fun s => and_congr_right fun _ => Real.holds_iff hQ h msg r s
  constructor
  · intro h
    cases h with
    | es256 x y d _ _ h => obtain ⟨r, s, rfl, h'⟩ := (key hv.1).mp h; exact .es256 _ _ _ _ _ _ h'
    | es384 x y d _ _ h => obtain ⟨r, s, rfl, h'⟩ := (key hv.1).mp h; exact .es384 _ _ _ _ _ _ h'
    | es512 x y d _ _ h => obtain ⟨r, s, rfl, h'⟩ := (key hv.1).mp h; exact .es512 _ _ _ _ _ _ h'
    | _ => exact absurd ha (by decide)
  · intro h
    cases h with
    | es256 x y d _ r s h => exact .es256 _ _ _ _ _ ((key hv.1).mpr ⟨r, s, rfl, h⟩)
    | es384 x y d _ r s h => exact .es384 _ _ _ _ _ ((key hv.1).mpr ⟨r, s, rfl, h⟩)
    | es512 x y d _ r s h => exact .es512 _ _ _ _ _ ((key hv.1).mpr ⟨r, s, rfl, h⟩)

/-- C120: under ECDSA exactly the tokens with a valid signature in DER are accepted. -/
theorem C120_accept (v : Val) (key : Jwk) (hk : Jwk.init Real.crypto v = .ok key) (a : PyStr) (ha : a ∈ ecdsaAlgs) (tok : Bytes)
    (header : Dict PyStr Val) (payload : Bytes) :
    (∃ j, Jws.deserialize Real.crypto tok key (some a) true = .ok j ∧ j.header.data = header ∧ j.payload = payload) ↔
      SignedToken EcdsaSig Real.crypto.fe key a tok header payload :=
  accept_iff hk (by rintro rfl; exact absurd ha (by decide)) (by rintro rfl; exact absurd ha (by decide)) fun _ _ => sigOk_ecdsa ha (valid_of_init hk)

/-- C120: the signature of every token that is made with an EC key is valid, whatever the random numbers. -/
theorem C120_sign (hv : Val) (h : JwsHeader) (hh : JwsHeader.init hv = .ok h) (a : PyStr) (ha : dget h.data (py! "alg") = .str a)
    (hp : a ∈ ecdsaAlgs) (v : Val) (key : Jwk) (hk : Jwk.init Real.crypto v = .ok key) (payload : Bytes) (seed : Nat) (tok : Bytes)
    (ht : Jws.serialize Real.crypto ⟨h, payload⟩ key seed = .ok tok) :
    ∃ hb sig, utf8Encode (jsonDumps Real.crypto.fe (.dict h.data)) = .ok hb ∧
      tok = b64urlEncode hb ++ by! "." ++ b64urlEncode payload ++ by! "." ++ b64urlEncode sig ∧
      EcdsaSig a key.mat (b64urlEncode hb ++ by! "." ++ b64urlEncode payload) sig := by
  obtain ⟨-, hb, msg, sig, h1, rfl, h3, h4⟩ := (C79_serialize Real.crypto hv h hh a ha v key hk payload seed tok).mp ht
  refine ⟨hb, sig, h1, h3, ?_⟩
  have good {c x y d hash msg} (he : key.mat = .ec c x y (some d)) :
      EcdsaValid c x y hash msg (Real.ecdsaSign c d hash msg seed).1 (Real.ecdsaSign c d hash msg seed).2 := by
    obtain ⟨⟨Q, hQ⟩, hd⟩ := C120_loaded v key hk c x y _ he
    exact (Real.holds_iff hQ hash msg _ _).mp (Real.ecdsaSign_ok (hd d rfl) hash msg seed)
  rcases h4 with ⟨h4, -⟩ | h4
  · subst h4; exact absurd hp (by decide)
  · generalize hm : key.mat = m at h4
    cases h4 with
    | es256 x y d => exact .es256 _ _ _ _ _ _ (good hm)
    | es384 x y d => exact .es384 _ _ _ _ _ _ (good hm)
    | es512 x y d => exact .es512 _ _ _ _ _ _ (good hm)
    | _ => exact absurd hp (by decide)

/-- C120: every token that is made with an EC key is accepted with the key loaded from its public dump, and gives the header and the payload
that went in. -/
theorem C120_roundtrip (d0 : Dict PyStr Val) (h0 : Dict.Ok d0) (sk : Jwk) (hk : Jwk.init Real.crypto (.dict d0) = .ok sk) (c : Curve)
    (x y d : Nat) (hm : sk.mat = .ec c x y (some d)) (hx : 0 < x) (hv : Val) (h : JwsHeader)
    (hh : JwsHeader.init hv = .ok h) (hwf : (Val.dict h.data).Wf) (payload : Bytes) (seed : Nat) (tok : Bytes)
    (hs : Jws.serialize Real.crypto ⟨h, payload⟩ sk seed = .ok tok) (a : PyStr) (ha : dget h.data (py! "alg") = .str a) :
    ∃ d vk, sk.dump true = .ok d ∧ Jwk.init Real.crypto (.dict d) = .ok vk ∧
      Jws.deserialize Real.crypto tok vk (some a) true = .ok ⟨h, payload⟩ := by
  have hd := ((C120_loaded _ sk hk c x y _ hm).2 d rfl).pos
  have hy : 0 < y := by obtain ⟨Q, hQ⟩ := (C120_loaded _ sk hk c x y _ hm).1; exact Real.y_pos hQ
  refine C113_roundtrip d0 h0 sk hk ?_ ?_ hv h hh hwf payload seed tok hs a ha
  · rw [hm]
    refine ⟨by omega, by omega, ?_⟩
    intro he
    cases he
    omega
  · intro n e r he
    rw [hm] at he
    cases he

theorem private_number (c : Curve) (x y : Nat) (h : ∃ Q : (ecCurve c).Point, OnAt Q x y) :
    ∃ n, EcKey c x y n ∧ ∀ n', EcKey c x y n' → n' = n := by
  obtain ⟨Q, hQ⟩ := h
  obtain ⟨n, hn, he⟩ := Real.exists_smul c Q
  have hpos : 0 < n := by
    rcases Nat.eq_zero_or_pos n with rfl | h
    · rw [zero_nsmul] at he
      obtain ⟨-, -, hxy, hq⟩ := hQ
      rw [hq] at he
      exact absurd he.symm (WeierstrassCurve.Affine.Point.some_ne_zero _)
    · exact h
  refine ⟨n, ⟨hpos, hn, Real.G c, Real.G_at c, by subst he; exact hQ⟩, ?_⟩
  rintro n' ⟨h1, h2, G', hG, h3⟩
  rw [Real.OnAt.unique hG (Real.G_at c)] at h3
  have hs : n' • Real.G c = n • Real.G c := by rw [he]; exact Real.OnAt.unique h3 hQ
  have := (ZMod.natCast_eq_natCast_iff _ _ _).mp ((Real.smul_eq c).mp hs)
  unfold Nat.ModEq at this
  rwa [Nat.mod_eq_of_lt h2, Nat.mod_eq_of_lt hn] at this

/-- C120: to every EC public key that is loaded there is exactly one private number. -/
theorem C120_private (v : Val) (key : Jwk) (hk : Jwk.init Real.crypto v = .ok key) (c : Curve) (x y : Nat) (d : Option Nat)
    (hm : key.mat = .ec c x y d) : ∃ n, EcKey c x y n ∧ ∀ n', EcKey c x y n' → n' = n :=
  private_number c x y (C120_loaded v key hk c x y d hm).1

/-- C13 with the primitives themselves: on P-256 there is a key pair whose first coordinate is zero. It is loaded, and its dump cannot be
loaded. -/
theorem C13_zero_refuted : ∃ y d key dump, EcKey .p256 0 y d ∧ Jwk.init Real.crypto (.dict [(py! "kty", .str (py! "EC")),
      (py! "crv", .str (py! "P-256")), (py! "x", .str (py! "AA")), (py! "y", numVal y), (py! "d", numVal d)]) = .ok key ∧
    key.mat = .ec .p256 0 y (some d) ∧ key.dump false = .ok dump ∧ Jwk.init Real.crypto (.dict dump) = .error .valueErr := by
  have hp : Real.crypto.ecPubOk .p256 0 0x66485c780e2f83d72433bd5d84a06bb6541c2af31dae871728bf856a174f93f4 = true := by decide +kernel
  obtain ⟨d, hd, -⟩ := private_number .p256 0 0x66485c780e2f83d72433bd5d84a06bb6541c2af31dae871728bf856a174f93f4 ((Real.on_iff _ _ _).mp hp)
  obtain ⟨key, dump, h1, h2, h3, h4⟩ := C13_reload_refuted.2.2.2 Real.crypto 0x66485c780e2f83d72433bd5d84a06bb6541c2af31dae871728bf856a174f93f4
    d (by decide) hd.pos hp ((Real.priv_iff _ _ _ _).mpr hd)
  exact ⟨_, d, key, dump, hd, h1, h2, h3, h4⟩

/-! ## C121 -/

theorem junk_prefix (s : Bytes) : b64urlDecode (by! "!!!!" ++ s) = b64urlDecode s := by
  unfold b64urlDecode a2b
  have hl : (by! "!!!!" ++ s).length % 4 = s.length % 4 := by
    simp only [List.length_append, List.length_cons, List.length_nil]
    omega
  rw [hl]
  show a2bLoop 0 0 0 (33 :: 33 :: 33 :: 33 :: _) = _
  simp only [a2bLoop]
  rfl

/-- C121 is violated: whatever the key and the algorithm, characters outside of the alphabet can be put into the signature of an accepted
token, and the token is accepted as before. -/
theorem C121_text_refuted (cr : Crypto) (v : Val) (key : Jwk) (hk : Jwk.init cr v = .ok key) (tok : Bytes) (alg : Option PyStr) (j : Jws)
    (h : Jws.deserialize cr tok key alg true = .ok j) :
    ∃ msg sb, tok = msg ++ by! "." ++ sb ∧ msg ++ by! "." ++ (by! "!!!!" ++ sb) ≠ tok ∧
      ∃ j', Jws.deserialize cr (msg ++ by! "." ++ (by! "!!!!" ++ sb)) key alg true = .ok j' ∧ j'.header.data = j.header.data ∧
        j'.payload = j.payload := by
  obtain ⟨hb, pb, sb, raw, hd, a, h1, h2, h3, h4, h5, h6, h7, h8, h9, h10, h11, h12, h13⟩ :=
    (C79_deserialize cr v key hk tok alg _ _).mp ⟨j, h, rfl, rfl⟩
  refine ⟨hb ++ by! "." ++ pb, sb, h1, ?_, ?_⟩
  · intro he
    have := congrArg List.length he
    rw [h1] at this
    simp at this
    omega
  · refine (C79_deserialize cr v key hk _ alg _ _).mpr ⟨hb, pb, by! "!!!!" ++ sb, raw, hd, a, rfl, h2, h3, ?_, h5, h6, h7, h8, h9, h10, h11, ?_, h13⟩
    · simp only [List.mem_append, not_or]
      exact ⟨by decide, h4⟩
    · rw [junk_prefix]
      exact h12

/-- C121 is violated by ECDSA even in the octets of the signature: who sees an accepted token can make another one from it without the key,
by `n - s` in the place of `s`. -/
theorem C121_ecdsa_refuted (v : Val) (key : Jwk) (hk : Jwk.init Real.crypto v = .ok key) (a : PyStr) (ha : a ∈ ecdsaAlgs) (tok : Bytes)
    (j : Jws) (h : Jws.deserialize Real.crypto tok key (some a) true = .ok j) :
    ∃ c x y d msg sb r s, key.mat = .ec c x y d ∧ tok = msg ++ by! "." ++ sb ∧ b64urlDecode sb = .ok (derSig r s) ∧
      derSig r ((Real.domain c).n - s) ≠ derSig r s ∧
      ∃ j', Jws.deserialize Real.crypto (msg ++ by! "." ++ b64urlEncode (derSig r ((Real.domain c).n - s))) key (some a) true = .ok j' ∧
        j'.header.data = j.header.data ∧ j'.payload = j.payload := by
  obtain ⟨hb, pb, sb, raw, hd, sig, h1, h2, h3, h4, h5, h6, h7, h8, h9, h11, h13, hs1, hs2⟩ :=
    (C120_accept v key hk a ha tok _ _).mp ⟨j, h, rfl, rfl⟩
  have main : ∀ {c x y d hash r s}, key.mat = .ec c x y d → sig = derSig r s → EcdsaValid c x y hash (hb ++ by! "." ++ pb) r s →
      EcdsaSig a key.mat (hb ++ by! "." ++ pb) (derSig r ((Real.domain c).n - s)) →
      ∃ c x y d msg sb r s, key.mat = .ec c x y d ∧ tok = msg ++ by! "." ++ sb ∧ b64urlDecode sb = .ok (derSig r s) ∧
      derSig r ((Real.domain c).n - s) ≠ derSig r s ∧
      ∃ j', Jws.deserialize Real.crypto (msg ++ by! "." ++ b64urlEncode (derSig r ((Real.domain c).n - s))) key (some a) true = .ok j' ∧
        j'.header.data = j.header.data ∧ j'.payload = j.payload := by
    intro c x y d hash r s hm he hval hnew
    refine ⟨c, x, y, d, hb ++ by! "." ++ pb, sb, r, s, hm, h1, by rw [← he]; exact hs1, ?_, ?_⟩
    · intro hc
      have h3 := hval.sPos
      have h4 := hval.sLt
      have := Real.derSig_inj hval.rLt (by omega) h4 hc
      have hodd := Real.n_odd c
      omega
    · exact (C120_accept v key hk a ha _ _ _).mpr ⟨hb, pb, _, raw, hd, _, rfl, h2, h3, no_dot _, h5, h6, h7, h8, h9, h11, h13,
        b64_roundtrip _, hnew⟩
  obtain ⟨m, hm⟩ : ∃ m, key.mat = m := ⟨_, rfl⟩
  replace hs2 : EcdsaSig a m (hb ++ by! "." ++ pb) sig := hm ▸ hs2
  cases hs2 with
  | es256 x y d _ r s hv => exact main hm rfl hv (by rw [hm]; exact .es256 _ _ _ _ _ _ (Real.valid_neg hv))
  | es384 x y d _ r s hv => exact main hm rfl hv (by rw [hm]; exact .es384 _ _ _ _ _ _ (Real.valid_neg hv))
  | es512 x y d _ r s hv => exact main hm rfl hv (by rw [hm]; exact .es512 _ _ _ _ _ _ (Real.valid_neg hv))

/-- C121, the part that holds: under HMAC and RSASSA-PKCS1-v1_5 two accepted tokens with the same first two parts have the same octets as
signature. -/
theorem C121_partial (v : Val) (key : Jwk) (hk : Jwk.init Real.crypto v = .ok key)
    (hm : ∀ n e p, key.mat = .rsa n e p → ∃ r, RsaKey n e r) (a : PyStr) (ha : a ∈ plainAlgs) (hb pb sb sb' : Bytes) (h1 : 46 ∉ hb)
    (h2 : 46 ∉ pb) (h3 : 46 ∉ sb) (h4 : 46 ∉ sb') (j j' : Jws)
    (hj : Jws.deserialize Real.crypto (hb ++ by! "." ++ pb ++ by! "." ++ sb) key (some a) true = .ok j)
    (hj' : Jws.deserialize Real.crypto (hb ++ by! "." ++ pb ++ by! "." ++ sb') key (some a) true = .ok j') :
    ∃ sig, b64urlDecode sb = .ok sig ∧ b64urlDecode sb' = .ok sig := by
  have parts : ∀ {sb j}, 46 ∉ sb → Jws.deserialize Real.crypto (hb ++ by! "." ++ pb ++ by! "." ++ sb) key (some a) true = .ok j →
      ∃ sig, b64urlDecode sb = .ok sig ∧ RfcSig Real.arith a key.mat (hb ++ by! "." ++ pb) sig := by
    intro sb j h3 hj
    obtain ⟨hb', pb', sb', raw, hd, sig, e1, e2, e3, e4, -, -, -, -, -, -, -, e5, e6⟩ :=
      (C99_accept_partial Real.arith Real.crypto Real.documented v key hk a ha _ _ _).mp ⟨j, hj, rfl, rfl⟩
    have hsp := split_token hb pb sb h1 h2 h3
    have hsp' := split_token hb' pb' sb' e2 e3 e4
    have heq : [hb, pb, sb] = [hb', pb', sb'] := by
      rw [← hsp, ← hsp']
      congr 1
      simpa using e1
    simp only [List.cons.injEq, and_true] at heq
    obtain ⟨rfl, rfl, rfl⟩ := heq
    exact ⟨sig, e5, e6⟩
  obtain ⟨sig, hs, ho⟩ := parts h3 hj
  obtain ⟨sig', hs', ho'⟩ := parts h4 hj'
  have same : sig = sig' := by
    have uniq {n e p h} (hmat : key.mat = .rsa n e p) (x : Real.arith.pkcsHolds n e h (hb ++ by! "." ++ pb) sig = .ok true)
        (y : Real.arith.pkcsHolds n e h (hb ++ by! "." ++ pb) sig' = .ok true) : sig = sig' := by
      obtain ⟨r, hr⟩ := hm n e p hmat
      exact Real.pkcs_unique hr (Except.ok.inj x) (Except.ok.inj y)
    generalize hmat : key.mat = m at ho ho'
    cases ho with
    | hs256 s => cases ho'; rfl
    | hs384 s => cases ho'; rfl
    | hs512 s => cases ho'; rfl
    | rs256 n e p _ _ x => cases ho' with | rs256 _ _ _ _ _ y => exact uniq hmat x y
    | rs384 n e p _ _ x => cases ho' with | rs384 _ _ _ _ _ y => exact uniq hmat x y
    | rs512 n e p _ _ x => cases ho' with | rs512 _ _ _ _ _ y => exact uniq hmat x y
    | _ => exact absurd ha (by decide)
  subst same
  exact ⟨sig, hs, hs'⟩

/-! ## The key and the token of RFC 7515, appendix A.3 -/

/-- The members of the key. -/
def rfcEcMembers : Dict PyStr Val :=
  [(py! "kty", .str (py! "EC")), (py! "crv", .str (py! "P-256")), (py! "x", .str (py! "f83OJ3D2xF1Bg8vub9tLe1gHMzV76e8Tus9uPHvRVEU")),
    (py! "y", .str (py! "x_FEzRu9m36HLN_tue659LNpXW6pCyStikYjKIWI5a0")), (py! "d", .str (py! "jpsQnnGQmL-YBIffH1136cspYG6-0iY7X1fCE9-E9LI"))]

/-- Its numbers. -/
def rfcEcX : Nat := 0x7fcdce2770f6c45d4183cbee6fdb4b7b580733357be9ef13bacf6e3c7bd15445

def rfcEcY : Nat := 0xc7f144cd1bbd9b7e872cdfedb9eeb9f4b3695d6ea90b24ad8a4623288588e5ad

def rfcEcD : Nat := 0x8e9b109e719098bf980487df1f5d77e9cb29606ebed2263b5f57c213df84f4b2

/-- They are a key pair of FIPS 186-4. -/
theorem rfc_key : EcKey .p256 rfcEcX rfcEcY rfcEcD := (Real.priv_iff _ _ _ _).mp (by decide +kernel)

/-- The next number is not the private one. -/
example : ¬ EcKey .p256 rfcEcX rfcEcY (rfcEcD + 1) := fun h => absurd ((Real.priv_iff _ _ _ _).mpr h) (by decide +kernel)

/-- A point beside the curve belongs to no key. -/
example (v : Val) (key : Jwk) (hk : Jwk.init Real.crypto v = .ok key) (d : Option Nat) : key.mat ≠ .ec .p256 rfcEcX (rfcEcY + 1) d :=
  fun hm => absurd ((Real.on_iff _ _ _).mpr (C120_loaded v key hk _ _ _ _ hm).1) (by decide +kernel)

/-- The members are loaded. -/
theorem rfc_loads : ∃ key, Jwk.init Real.crypto (.dict rfcEcMembers) = .ok key ∧ key.mat = .ec .p256 rfcEcX rfcEcY (some rfcEcD) := by
  have : (match Jwk.init Real.crypto (.dict rfcEcMembers) with
      | .ok k => decide (k.mat = .ec .p256 rfcEcX rfcEcY (some rfcEcD))
      | .error _ => false) = true := by decide +kernel
  split at this
  · rename_i k hk
    exact ⟨k, hk, of_decide_eq_true this⟩
  · cases this

/-- The private number of its public key is found nowhere else. -/
example (n : Nat) (h : EcKey .p256 rfcEcX rfcEcY n) : n = rfcEcD := by
  obtain ⟨key, hk, hm⟩ := rfc_loads
  obtain ⟨n', -, h'⟩ := C120_private _ key hk _ _ _ _ hm
  rw [h' n h, h' _ rfc_key]

/-- The token of the appendix with its signature in DER. -/
def rfcEcToken : Bytes :=
  by! "eyJhbGciOiJFUzI1NiJ9.eyJpc3MiOiJqb2UiLA0KICJleHAiOjEzMDA4MTkzODAsDQogImh0dHA6Ly9leGFtcGxlLmNvbS9pc19yb290Ijp0cnVlfQ" ++ by! "." ++
    b64urlEncode (derSig 0x0ed1215379636c483c2f7f155807d402a3b228033af97c7e17819ac3169ea665
      0xc50a07d38c3c70e5d8f12daf084a5480a66590c5f293509a8f3f7f8a83a354d5)

/-- It is accepted. -/
theorem rfc_accepted : ∃ key j, Jwk.init Real.crypto (.dict rfcEcMembers) = .ok key ∧
    Jws.deserialize Real.crypto rfcEcToken key (some (py! "ES256")) true = .ok j := by
  have : (match Jwk.init Real.crypto (.dict rfcEcMembers) with
      | .ok k => (match Jws.deserialize Real.crypto rfcEcToken k (some (py! "ES256")) true with
        | .ok _ => true
        | .error _ => false)
      | .error _ => false) = true := by decide +kernel
  split at this
  · rename_i k hk
    split at this
    · rename_i j hj
      exact ⟨k, j, hk, hj⟩
    · cases this
  · cases this

/-- So its signature is one of FIPS 186-4. -/
example : ∃ (key : Jwk) (j : Jws), SignedToken EcdsaSig Real.crypto.fe key (py! "ES256") rfcEcToken j.header.data j.payload := by
  obtain ⟨key, j, hk, h⟩ := rfc_accepted
  exact ⟨key, j, (C120_accept _ key hk _ (by decide) _ _ _).mp ⟨j, h, rfl, rfl⟩⟩

/-- Two more tokens with its header and payload are accepted, and nobody signed them. -/
example : ∃ key tok tok', tok ≠ rfcEcToken ∧ tok' ≠ rfcEcToken ∧ (∃ j, Jws.deserialize Real.crypto tok key (some (py! "ES256")) true = .ok j) ∧
    ∃ j, Jws.deserialize Real.crypto tok' key (some (py! "ES256")) true = .ok j := by
  obtain ⟨key, j, hk, h⟩ := rfc_accepted
  obtain ⟨msg, sb, -, h1, j', h2, -⟩ := C121_text_refuted _ _ key hk _ _ _ h
  obtain ⟨c, x, y, d, msg', sb', r, s, -, h3, h4, h5, j'', h6, -⟩ := C121_ecdsa_refuted _ key hk _ (by decide) _ _ h
  refine ⟨key, _, _, h1, ?_, ⟨_, h2⟩, ⟨_, h6⟩⟩
  rw [h3]
  intro he
  have := List.append_cancel_left he
  rw [← this, b64_roundtrip] at h4
  exact h5 (Except.ok.inj h4)

/-- The key signs with ES256, and the signature is valid. -/
example : ∃ key tok sig msg, Jwk.init Real.crypto (.dict rfcEcMembers) = .ok key ∧
    Jws.serialize Real.crypto ⟨⟨[(py! "alg", .str (py! "ES256"))], .es .sha256⟩, by! "hi"⟩ key 5 = .ok tok ∧
    EcdsaSig (py! "ES256") key.mat msg sig := by
  have : (match Jwk.init Real.crypto (.dict rfcEcMembers) with
      | .ok k => (match Jws.serialize Real.crypto ⟨⟨[(py! "alg", .str (py! "ES256"))], .es .sha256⟩, by! "hi"⟩ k 5 with
        | .ok _ => true
        | .error _ => false)
      | .error _ => false) = true := by decide +kernel
  split at this
  · rename_i key hk
    split at this
    · rename_i tok ht
      obtain ⟨hb, sig, -, -, h⟩ := C120_sign (.dict [(py! "alg", .str (py! "ES256"))]) _ rfl (py! "ES256") rfl (by decide) _ key hk _ 5 tok ht
      exact ⟨key, tok, sig, _, hk, ht, h⟩
    · cases this
  · cases this

/-- Under HS256 the two accepted spellings of the signature are the same octets. -/
example : ∃ key hb pb sb j j', Jwk.init Real.crypto (.dict [(py! "kty", .str (py! "oct")), (py! "k", .str (py! "qDM80igvja4Tg_tNsEuWDhl2bMM6_NgJEldFhIEuwqQ"))]) = .ok key ∧
    Jws.deserialize Real.crypto (hb ++ by! "." ++ pb ++ by! "." ++ sb) key (some (py! "HS256")) true = .ok j ∧
    Jws.deserialize Real.crypto (hb ++ by! "." ++ pb ++ by! "." ++ (by! "!!!!" ++ sb)) key (some (py! "HS256")) true = .ok j' ∧
    ∃ sig, b64urlDecode sb = .ok sig ∧ b64urlDecode (by! "!!!!" ++ sb) = .ok sig := by
  have : (match Jwk.init Real.crypto (.dict [(py! "kty", .str (py! "oct")), (py! "k", .str (py! "qDM80igvja4Tg_tNsEuWDhl2bMM6_NgJEldFhIEuwqQ"))]) with
      | .ok k => (match k.mat with
        | .oct _ => true
        | _ => false) && (match Jws.deserialize Real.crypto (by! "eyJhbGciOiAiSFMyNTYifQ" ++ by! "." ++ by! "U3VwZXIgaW1wb3J0YW50IG1lc3NhZ2Uu" ++ by! "." ++
          by! "hcKC9ON7r55CL1bekT5KlYN37Dwx_3yGNlhexf89-1Y") k (some (py! "HS256")) true with
        | .ok _ => true
        | .error _ => false) && (match Jws.deserialize Real.crypto (by! "eyJhbGciOiAiSFMyNTYifQ" ++ by! "." ++ by! "U3VwZXIgaW1wb3J0YW50IG1lc3NhZ2Uu" ++ by! "." ++
          (by! "!!!!" ++ by! "hcKC9ON7r55CL1bekT5KlYN37Dwx_3yGNlhexf89-1Y")) k (some (py! "HS256")) true with
        | .ok _ => true
        | .error _ => false)
      | .error _ => false) = true := by decide +kernel
  split at this
  · rename_i k hk
    rw [Bool.and_eq_true, Bool.and_eq_true] at this
    obtain ⟨⟨h1, h2⟩, h3⟩ := this
    split at h2
    · rename_i j hj
      split at h3
      · rename_i j' hj'
        refine ⟨k, _, _, _, j, j', hk, hj, hj', C121_partial _ k hk ?_ _ (by decide) _ _ _ _ (by decide) (by decide) (by decide) (by decide) j j' hj hj'⟩
        intro n e p hm
        rw [hm] at h1
        cases h1
      · cases h3
    · cases h2
  · cases this

end Psion.Props
