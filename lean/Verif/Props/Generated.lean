import Verif.Props.Ecdsa
import Verif.Props.KeyLoad
import Verif.Spec.KeyGeneration

/-!
# Property C131: generated keys can be used

The primitives are the algorithms themselves (`Real.crypto`); of the fresh numbers only what their generators document is known (`Drawn`).
-/

namespace Psion.Props

open Psion Psion.Spec

/-- The numbers of a fresh RSA key pass the checks of the package, and none of them is zero. -/
theorem fresh_rsa_ok {size e n : Nat} {r : RsaPriv} (h : FreshRsa size e n r) (he : 3 ≤ e) (ho : e % 2 = 1) (hn : e < n) :
    Real.crypto.rsaPrivOk n e r = true ∧ NoZero (.rsa n e (some r)) := by
  obtain ⟨k, -, -, hp, hq, hd, hdp, hdq, hqi, hqi'⟩ := h
  obtain ⟨pp, pq, -, hpq, kp, kq, -⟩ := k
  obtain ⟨d, p, q, dp, dq, qi⟩ := r
  simp only at *
  have odd : ∀ {t : Nat}, t.Prime → 2 < t → e * d % (t - 1) = 1 % (t - 1) → d % (t - 1) % 2 = 1 := by
    intro t ht h2 hk
    have ht' : t % 2 = 1 := by
      rcases ht.eq_two_or_odd with h | h
      · omega
      · exact h
    have h1 : 2 ∣ t - 1 := by omega
    have h3 : e * d % 2 = 1 := by
      rw [← Nat.mod_mod_of_dvd _ h1, hk, Nat.mod_mod_of_dvd _ h1]
    rw [Nat.mod_mod_of_dvd _ h1]
    rw [Nat.mul_mod, ho] at h3
    omega
  have o1 := odd pp hp kp
  have o2 := odd pq hq kq
  rw [← hdp] at o1
  rw [← hdq] at o2
  have l1 : p < n := by rw [hpq]; nlinarith
  have l2 : q < n := by rw [hpq]; nlinarith
  have l3 : dp < p - 1 := by rw [hdp]; exact Nat.mod_lt _ (by omega)
  have l4 : dq < q - 1 := by rw [hdq]; exact Nat.mod_lt _ (by omega)
  have hd0 : d ≠ 0 := by
    rintro rfl
    rw [hdp] at o1
    simp at o1
  have hqi0 : qi ≠ 0 := by
    rintro rfl
    simp at hqi'
  constructor
  · show decide _ = true
    rw [decide_eq_true_eq]
    dsimp only
    refine ⟨by omega, he, hn, ho, l1, l2, by omega, by omega, by omega, hd, o1, o2, hpq.symm⟩
  · refine ⟨by omega, by omega, ?_⟩
    intro r hr
    cases hr
    exact ⟨hd0, by dsimp only; omega, by dsimp only; omega, by dsimp only; omega, by dsimp only; omega, hqi0⟩

theorem big_of_size {size n : Nat} (hs : 512 ≤ size) (h : 2 ^ (size - 1) ≤ n) : 65537 < n := by
  have : 2 ^ 17 ≤ 2 ^ (size - 1) := Nat.pow_le_pow_right (by decide) (by omega)
  have h17 : (2 : Nat) ^ 17 = 131072 := by decide
  omega

/-- The key can be used whole: no coordinate is zero, and a modulus has 745 bits or more. -/
def Usable : Material → Prop
  | .oct _ => True
  | .ec _ x _ _ => x ≠ 0
  | .rsa n _ _ => 2 ^ 744 ≤ n

/-- What was drawn passes the checks. -/
theorem drawn_ok {f : Fresh} (hf : Drawn f) {alg : PyStr} {option : Option (Nat ⊕ PyStr)} {m : Material} (hr : Requested f alg option m)
    (hx : ∀ c y d, m ≠ .ec c 0 y d) : NoZero m ∧ m.Valid Real.crypto ∧ RsaSound m := by
  have rsa : ∀ {size n e : Nat} {r : RsaPriv}, 512 ≤ size → f.rsa 65537 size = .ok (n, e, r) →
      NoZero (.rsa n e (some r)) ∧ (Material.rsa n e (some r)).Valid Real.crypto ∧ RsaSound (.rsa n e (some r)) := by
    intro size n e r hs h
    obtain ⟨rfl, hk⟩ := hf.rsa _ _ _ _ _ h
    obtain ⟨h1, h2⟩ := fresh_rsa_ok hk (by decide) rfl (big_of_size hs hk.big)
    refine ⟨h2, ⟨?_, ?_⟩, ?_⟩
    · have := big_of_size hs hk.big
      show decide _ = true
      rw [decide_eq_true_eq]
      exact ⟨by omega, by omega, by omega, by omega⟩
    · intro r' hr'
      cases hr'
      exact h1
    · intro n' e' r' he
      cases he
      exact hk.key
  cases hr with
  | oct => exact ⟨trivial, trivial, nofun⟩
  | octZero => exact ⟨trivial, trivial, nofun⟩
  | octSize n h => exact ⟨trivial, trivial, nofun⟩
  | ec c x y d h =>
    have hk := hf.ec c x y d h
    obtain ⟨G, -, hQ⟩ := id hk.point
    refine ⟨⟨?_, (Real.y_pos hQ).ne', ?_⟩, ⟨(Real.on_iff c x y).mpr ⟨_, hQ⟩, ?_⟩, nofun⟩
    · rintro rfl
      exact hx c y _ rfl
    · intro he
      cases he
      exact absurd hk.pos (by omega)
    · intro n hn
      cases hn
      exact (Real.priv_iff c x y d).mpr hk
  | rsa n e r h => exact rsa (by omega) h
  | rsaZero n e r h => exact rsa (by omega) h
  | rsaSize n e r size hs h => exact rsa hs h

/-- A generated key was loaded from members with distinct names; those that are neither its own nor passed to `generate` are absent. -/
theorem generate_init {cr : Crypto} {alg : PyStr} {option : Option (Nat ⊕ PyStr)} {f : Fresh} {params : Dict PyStr Val} {key : Jwk}
    (hok : Dict.Ok params) (h : Jwk.generate cr alg option f params = .ok key) :
    ∃ d0, Dict.Ok d0 ∧ Jwk.init cr (.dict d0) = .ok key ∧
      ∀ k, Dict.get params k = none → k ∉ [py! "kty", py! "k", py! "crv", py! "x", py! "y", py! "d", py! "n", py! "e", py! "p", py! "q",
        py! "dp", py! "dq", py! "qi"] → dget key.data k = .none := by
  unfold Jwk.generate at h
  split at h
  · cases h
  · split at h
    · cases h
    · rename_i m hm
      split at h
      · cases h
      · rename_i md hmd
        have huok := Dict.ok_update (dump_ok_dict _ _ _ hmd) params
        refine ⟨_, ok_fullDict huok, h, ?_⟩
        intro k hk hne
        obtain ⟨d, he, hdata, -⟩ := jwkInit_ok.mp h
        cases he
        rw [hdata, dget_fullDict (ok_fullDict huok), dget_fullDict huok]
        unfold dget
        rw [Dict.get_update_ok hok, hk, dump_names hmd]
        · rfl
        · intro hc
          apply hne
          revert hc
          cases m <;> simp only [Material.kty, Kty.allowed, List.mem_cons, List.not_mem_nil, or_false] <;> tauto

/-- C131, in part: what `generate` is asked for and draws is a key that signs every payload under every algorithm for it, and the key
loaded from its public dump accepts the token. The property as stated has no condition `Usable`, see `C131_refuted`. -/
theorem C131_partial (f : Fresh) (hf : Drawn f) (alg : PyStr) (option : Option (Nat ⊕ PyStr)) (m : Material) (hr : Requested f alg option m)
    (hu : Usable m) (params : Dict PyStr Val) (hok : Dict.Ok params) (hx : Extra m params)
    (hfree : ∀ k ∈ [py! "alg", py! "use", py! "key_ops"], Dict.get params k = none)
    (hv : Val) (h : JwsHeader) (hh : JwsHeader.init hv = .ok h) (hwf : (Val.dict h.data).Wf)
    (henc : Encodable (jsonDumps Real.crypto.fe (.dict h.data))) (hkid : (dget h.data (py! "kid")).truthy = false)
    (a : PyStr) (ha : dget h.data (py! "alg") = .str a) (hfit : AlgFits a m) (payload : Bytes) (seed : Nat) :
    ∃ key tok d vk, Jwk.generate Real.crypto alg option f params = .ok key ∧ key.mat = m ∧
      Jws.serialize Real.crypto ⟨h, payload⟩ key seed = .ok tok ∧
      key.dump true = .ok d ∧ Jwk.init Real.crypto (.dict d) = .ok vk ∧
      Jws.deserialize Real.crypto tok vk (some a) true = .ok ⟨h, payload⟩ := by
  obtain ⟨hz, hval, hs⟩ := drawn_ok hf hr (by rintro c y d rfl; exact hu rfl)
  obtain ⟨key, hg, hm, -⟩ := C68_generate Real.crypto alg option f m hr hz hval params hok hx
  obtain ⟨d0, h0, hi, habs⟩ := generate_init hok hg
  have hpriv : HasPrivate Real.crypto key.mat := by
    rw [hm]
    have big : ∀ n e r, m = .rsa n e (some r) → HasPrivate Real.crypto m := by
      rintro n e r rfl
      exact C114_partial n e r hu
    cases hr with
    | oct => trivial
    | octZero => trivial
    | octSize n h => trivial
    | ec c x y d h => exact ⟨d, rfl⟩
    | rsa n e r h => exact big _ _ _ rfl
    | rsaZero n e r h => exact big _ _ _ rfl
    | rsaSize n e r size hs h => exact big _ _ _ rfl
  obtain ⟨tok, ht⟩ := C19_serialize_total Real.crypto hv h hh henc _ key hi a ha (by rw [hm]; exact hfit) (by
    intro k hk
    rw [habs k (hfree k hk) (by
      simp only [List.mem_cons, List.not_mem_nil, or_false] at hk
      rcases hk with rfl | rfl | rfl <;> decide)]
    rfl) hkid hpriv payload seed
  obtain ⟨d, vk, h1, h2, h3⟩ := C113_roundtrip d0 h0 key hi (by rw [hm]; exact hz) (by rw [hm]; exact hs) hv h hh hwf payload seed tok ht a ha
  exact ⟨key, tok, d, vk, hg, hm, ht, h1, h2, h3⟩

/-- The fresh numbers of the examples: the base points, and one RSA key for its size. -/
def someFresh (size : Nat) (n : Nat) (r : RsaPriv) (c0 : Curve) (x y d : Nat) : Fresh where
  oct n := List.replicate n 7
  ec c := if c = c0 then (x, y, d) else ((Real.domain c).gx, (Real.domain c).gy, 1)
  rsa e s := if e = 65537 ∧ s = size then .ok (n, 65537, r) else .error .valueErr

theorem someFresh_drawn {size n : Nat} {r : RsaPriv} {c0 : Curve} {x y d : Nat} (hr : FreshRsa size 65537 n r) (hc : EcKey c0 x y d) :
    Drawn (someFresh size n r c0 x y d) := by
  refine ⟨fun n => List.length_replicate, ?_, ?_⟩
  · intro c x' y' d' h
    simp only [someFresh] at h
    split at h
    · rename_i hcc
      cases h
      rw [hcc]; exact hc
    · cases h
      refine (Real.priv_iff _ _ _ _).mp ?_
      cases c <;> decide +kernel
  · intro e s n' e' r' h
    simp only [someFresh] at h
    split at h
    · rename_i hes
      cases h
      obtain ⟨rfl, rfl⟩ := hes
      exact ⟨rfl, hr⟩
    · cases h

theorem base_key (c : Curve) : EcKey c (Real.domain c).gx (Real.domain c).gy 1 := (Real.priv_iff _ _ _ _).mp (by cases c <;> decide +kernel)

/-- The key of 845 bits could have been drawn. -/
theorem prot_fresh : FreshRsa 845 65537 (protP * protQ) protPriv :=
  ⟨protKey_sound _ rfl, by decide +kernel, by decide +kernel, by decide +kernel, by decide +kernel, by decide +kernel, by decide +kernel,
    by decide +kernel, by decide +kernel, by decide +kernel⟩

/-- The fresh key of the second example, of 633 bits. -/
def smallPriv : RsaPriv where
  d := 45869832337890998563295862444492061407020864666409450035908147229544497656479793450882155701807432471609345
  p := 3 * 2 ^ 276 + 1
  q := 3 * 2 ^ 353 + 1
  dp := 235245176958281796892605926809127652821726215352742126708493519084473835702338912257
  dq := 45869832337890998563295862444492061407020864666409450035908147229544497656479793450882155701807432471609345
  qi := 207630692109098041269668140273767127030994168269894314704629757718299268738400058326

def smallN : Nat := (3 * 2 ^ 276 + 1) * (3 * 2 ^ 353 + 1)

theorem small_fresh : FreshRsa 633 65537 smallN smallPriv := by
  refine ⟨⟨?_, ?_, by decide +kernel, rfl, by decide +kernel, by decide +kernel, by decide +kernel⟩, by decide +kernel, by decide +kernel,
    by decide +kernel, by decide +kernel, by decide +kernel, by decide +kernel, by decide +kernel, by decide +kernel, by decide +kernel⟩
  · exact prime_of_powers _ 19 3 Nat.prime_three 276 rfl (by decide +kernel) (by decide +kernel) (by decide +kernel) (by decide +kernel)
  · exact prime_of_powers _ 5 3 Nat.prime_three 353 rfl (by decide +kernel) (by decide +kernel) (by decide +kernel) (by decide +kernel)

/-- C131 is violated: the generator of P-256 can draw a point whose first coordinate is zero, and then nothing is generated. -/
theorem C131_refuted : ∃ f m, Drawn f ∧ Requested f (py! "EC") (some (.inr (py! "P-256"))) m ∧
    ∀ params, Jwk.generate Real.crypto (py! "EC") (some (.inr (py! "P-256"))) f params = .error .valueErr := by
  have hp : Real.crypto.ecPubOk .p256 0 0x66485c780e2f83d72433bd5d84a06bb6541c2af31dae871728bf856a174f93f4 = true := by decide +kernel
  obtain ⟨d, hd, -⟩ := private_number .p256 0 0x66485c780e2f83d72433bd5d84a06bb6541c2af31dae871728bf856a174f93f4 ((Real.on_iff _ _ _).mp hp)
  generalize 0x66485c780e2f83d72433bd5d84a06bb6541c2af31dae871728bf856a174f93f4 = y at hp hd
  have hec : (someFresh 633 smallN smallPriv .p256 0 y d).ec .p256 = (0, y, d) := rfl
  refine ⟨_, _, someFresh_drawn small_fresh hd, .ec .p256 0 y d hec, ?_⟩
  intro params
  have hb : b64ToIntV (numVal 0) = .error .valueErr := b64ToIntV_numVal_zero
  have hi : ecInit Real.crypto (ecArgs (some .p256) 0 y (some d)) = .error .valueErr := by
    show ecInit Real.crypto [(py! "crv", .str (py! "P-256")), (py! "x", numVal 0), (py! "y", numVal y), (py! "d", numVal d)] = _
    unfold ecInit arg dget
    simp only [Dict.mem, Dict.get_cons, Dict.get_nil]
    simp [hb, Val.hashable, Curve.ofName, ok_bind, error_bind]
  unfold Jwk.generate
  have h1 : Kty.ofName (py! "EC") = some .ec := rfl
  have h2 : optTruthy (some (.inr (py! "P-256"))) = true := rfl
  have h3 : Curve.ofName (py! "P-256") = some .p256 := rfl
  rw [h1]
  simp only [h2, if_true, materialGenerate, h3, hec, hi]

/-- C131 is violated as well by small RSA keys: a key of 633 bits is generated, and cannot sign under RS512. -/
theorem C131_small_refuted : ∃ f m key, Drawn f ∧ Requested f (py! "RSA") (some (.inl 633)) m ∧ AlgFits (py! "RS512") m ∧
    Jwk.generate Real.crypto (py! "RSA") (some (.inl 633)) f [] = .ok key ∧ key.mat = m ∧
    Jws.serialize Real.crypto ⟨⟨[(py! "alg", .str (py! "RS512"))], .rs .sha512⟩, by! "hi"⟩ key 0 = .error .valueErr := by
  have : (match Jwk.generate Real.crypto (py! "RSA") (some (.inl 633))
      (someFresh 633 smallN smallPriv .p256 (Real.domain .p256).gx (Real.domain .p256).gy 1) [] with
    | .ok k => decide (k.mat = .rsa smallN 65537 (some smallPriv)) &&
      (match Jws.serialize Real.crypto ⟨⟨[(py! "alg", .str (py! "RS512"))], .rs .sha512⟩, by! "hi"⟩ k 0 with
        | .error e => decide (e = .valueErr)
        | .ok _ => false)
    | .error _ => false) = true := by decide +kernel
  split at this
  · rename_i key hk
    rw [Bool.and_eq_true] at this
    obtain ⟨h1, h2⟩ := this
    split at h2
    · rename_i e he
      rw [of_decide_eq_true h2] at he
      exact ⟨_, _, key, someFresh_drawn small_fresh (base_key .p256), .rsaSize smallN 65537 smallPriv 633 (by decide) rfl,
        .rs512 _ _ _, hk, of_decide_eq_true h1, he⟩
    · cases h2
  · cases this

/-- The generators of the examples. -/
theorem someFresh_example : Drawn (someFresh 845 (protP * protQ) protPriv .p256 (Real.domain .p256).gx (Real.domain .p256).gy 1) :=
  someFresh_drawn prot_fresh (base_key .p256)

/-- An RSA key of 845 bits with a `kid` is generated, and its token for PS384 is accepted. -/
example (seed : Nat) : ∃ key tok d vk h, Jwk.generate Real.crypto (py! "RSA") (some (.inl 845))
      (someFresh 845 (protP * protQ) protPriv .p256 (Real.domain .p256).gx (Real.domain .p256).gy 1) [(py! "kid", .str (py! "k1"))] = .ok key ∧
    Jws.serialize Real.crypto ⟨h, by! "hi"⟩ key seed = .ok tok ∧ key.dump true = .ok d ∧ Jwk.init Real.crypto (.dict d) = .ok vk ∧
    Jws.deserialize Real.crypto tok vk (some (py! "PS384")) true = .ok ⟨h, by! "hi"⟩ := by
  obtain ⟨key, tok, d, vk, h1, -, h2, h3, h4, h5⟩ := C131_partial _ someFresh_example (py! "RSA") (some (.inl 845)) _
    (.rsaSize (protP * protQ) 65537 protPriv 845 (by decide) rfl) (by show 2 ^ 744 ≤ protP * protQ; decide +kernel)
    [(py! "kid", .str (py! "k1"))] (by unfold Dict.Ok; decide) (by unfold Extra; decide) (by decide)
    (.dict [(py! "alg", .str (py! "PS384"))]) _ rfl (by simp [Val.Wf, Val.WfD, fullDict, Val.isNone])
    (by unfold Encodable; decide +kernel) rfl (py! "PS384") rfl (.ps384 _ _ _) (by! "hi") seed
  exact ⟨key, tok, d, vk, _, h1, h2, h3, h4, h5⟩

/-- So is a key of P-521. -/
example (seed : Nat) : ∃ key tok d vk h, Jwk.generate Real.crypto (py! "EC") (some (.inr (py! "P-521")))
      (someFresh 845 (protP * protQ) protPriv .p256 (Real.domain .p256).gx (Real.domain .p256).gy 1) [] = .ok key ∧
    Jws.serialize Real.crypto ⟨h, by! "hi"⟩ key seed = .ok tok ∧ key.dump true = .ok d ∧ Jwk.init Real.crypto (.dict d) = .ok vk ∧
    Jws.deserialize Real.crypto tok vk (some (py! "ES512")) true = .ok ⟨h, by! "hi"⟩ := by
  obtain ⟨key, tok, d, vk, h1, -, h2, h3, h4, h5⟩ := C131_partial _ someFresh_example (py! "EC") (some (.inr (py! "P-521"))) _
    (.ec .p521 (Real.domain .p521).gx (Real.domain .p521).gy 1 rfl) (by show (Real.domain .p521).gx ≠ 0; decide)
    [] (by unfold Dict.Ok; decide) (by unfold Extra; decide) (by decide)
    (.dict [(py! "alg", .str (py! "ES512"))]) _ rfl (by simp [Val.Wf, Val.WfD, fullDict, Val.isNone])
    (by unfold Encodable; decide +kernel) rfl (py! "ES512") rfl (.es512 _ _ _) (by! "hi") seed
  exact ⟨key, tok, d, vk, _, h1, h2, h3, h4, h5⟩

end Psion.Props
