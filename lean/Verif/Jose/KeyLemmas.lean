import Verif.Jose.Lemmas
import Verif.Spec.Jose

/-! Helper lemmas about keys: shape of loaded keys, meaning of signing and verifying. -/

namespace Psion

/-- What `ecInit` builds. -/
theorem ecInit_ok {cr : Crypto} {d : Dict PyStr Val} {m : Material} (h : ecInit cr d = .ok m) :
    ∃ c x y o, m = .ec c x y o ∧ dget d (py! "crv") = .str c.name ∧
      b64ToIntV (dget d (py! "x")) = .ok (some x) ∧ b64ToIntV (dget d (py! "y")) = .ok (some y) ∧
      cr.ecPubOk c x y = true ∧
      ((dget d (py! "d")).truthy = false ∧ o = none ∨
        ∃ n, (dget d (py! "d")).truthy = true ∧ b64ToNat (dget d (py! "d")) = .ok n ∧
          cr.ecPrivOk c x y n = true ∧ o = some n) := by
  unfold ecInit arg at h
  split at h
  · cases h
  cases h1 : Dict.get d (py! "crv") with
  | none => simp [h1, error_bind] at h
  | some crv =>
  cases h2 : Dict.get d (py! "x") with
  | none => simp [h1, h2, error_bind, ok_bind] at h
  | some vx =>
  cases h3 : Dict.get d (py! "y") with
  | none => simp [h1, h2, h3, error_bind, ok_bind] at h
  | some vy =>
  simp only [h1, h2, h3, ok_bind] at h
  split at h
  · simp only [throw_eq, error_bind, reduceCtorEq] at h
  split at h
  · rename_i s _
    split at h
    · cases h
    · rename_i c hc
      simp only [bind_ok_iff] at h
      obtain ⟨xn, hx, yn, hy, h⟩ := h
      split at h
      · rename_i xn yn
        split at h
        · simp only [throw_eq, error_bind, reduceCtorEq] at h
        rename_i hpub
        split at h
        · rename_i hd
          simp only [bind_ok_iff] at h
          obtain ⟨dn, hdn, h⟩ := h
          split at h
          · simp only [throw_eq, error_bind, reduceCtorEq] at h
          · rename_i hpriv
            simp only [pure_ok_iff] at h
            subst h
            refine ⟨c, xn, yn, _, rfl, by rw [dget_of_get h1, Curve.ofName_some hc],
              by rw [dget_of_get h2]; exact hx, by rw [dget_of_get h3]; exact hy,
              by simpa using hpub, Or.inr ⟨dn, hd, hdn, by simpa using hpriv, rfl⟩⟩
        · rename_i hd
          simp only [pure_ok_iff] at h
          subst h
          exact ⟨c, xn, yn, _, rfl, by rw [dget_of_get h1, Curve.ofName_some hc],
              by rw [dget_of_get h2]; exact hx, by rw [dget_of_get h3]; exact hy,
              by simpa using hpub, Or.inl ⟨by simpa using hd, rfl⟩⟩
      · cases h
  · cases h

/-- What `octInit` builds. -/
theorem octInit_ok {cr : Crypto} {d : Dict PyStr Val} {m : Material} (h : octInit cr d = .ok m) :
    ∃ b s, m = .oct s ∧ toBytesV cr.fe (dget d (py! "k")) = .ok (some b) ∧
      b64urlDecode b = .ok s := by
  unfold octInit arg at h
  split at h
  · cases h
  cases h1 : Dict.get d (py! "k") with
  | none => simp [h1, error_bind] at h
  | some k =>
    simp only [h1, ok_bind, bind_ok_iff] at h
    obtain ⟨o, ho, h⟩ := h
    split at h
    · cases h
    · rename_i b
      simp only [bind_ok_iff, pure_ok_iff] at h
      obtain ⟨s, hs, rfl⟩ := h
      exact ⟨b, s, rfl, by rw [dget_of_get h1]; exact ho, hs⟩

/-- What `rsaInit` builds. -/
theorem rsaInit_ok {cr : Crypto} {d : Dict PyStr Val} {m : Material} (h : rsaInit cr d = .ok m) :
    ∃ n e o, m = .rsa n e o ∧
      b64ToIntV (dget d (py! "n")) = .ok (some n) ∧ b64ToIntV (dget d (py! "e")) = .ok (some e) ∧
      cr.rsaPubOk n e = true ∧
      ((dget d (py! "d")).truthy = false ∧ o = none ∨
        ∃ r, (dget d (py! "d")).truthy = true ∧ rsaPrivate cr n e d = .ok r ∧
          cr.rsaPrivOk n e r = true ∧ o = some r) := by
  unfold rsaInit arg at h
  split at h
  · cases h
  cases h1 : Dict.get d (py! "n") with
  | none => simp [h1, error_bind] at h
  | some vn =>
  cases h2 : Dict.get d (py! "e") with
  | none => simp [h1, h2, error_bind, ok_bind] at h
  | some ve =>
  simp only [h1, h2, ok_bind, bind_ok_iff] at h
  obtain ⟨nn, hn, en, he, h⟩ := h
  split at h
  · rename_i nn en
    split at h
    · cases h
    rename_i hpub
    split at h
    · rename_i hd
      split at h
      · cases h
      · rename_i priv hp
        split at h
        · cases h
        · rename_i hpriv
          cases h
          exact ⟨nn, en, _, rfl, by rw [dget_of_get h1]; exact hn,
            by rw [dget_of_get h2]; exact he, by simpa using hpub,
            Or.inr ⟨_, hd, hp, by simpa using hpriv, rfl⟩⟩
    · rename_i hd
      cases h
      exact ⟨nn, en, _, rfl, by rw [dget_of_get h1]; exact hn, by rw [dget_of_get h2]; exact he,
          by simpa using hpub, Or.inl ⟨by simpa using hd, rfl⟩⟩
  · cases h

theorem materialInit_kty {cr : Crypto} {k : Kty} {d : Dict PyStr Val} {m : Material}
    (h : materialInit cr k d = .ok m) : m.kty = k := by
  cases k with
  | oct => obtain ⟨b, s, rfl, -⟩ := octInit_ok h; rfl
  | rsa => obtain ⟨n, e, o, rfl, -⟩ := rsaInit_ok h; rfl
  | ec => obtain ⟨c, x, y, o, rfl, -⟩ := ecInit_ok h; rfl

/-- What `JsonWebKey(data)` builds. -/
theorem jwkInit_ok {cr : Crypto} {v : Val} {key : Jwk} :
    Jwk.init cr v = .ok key ↔
      ∃ d, v = .dict d ∧ key.data = fullDict d ∧ dget d (py! "kty") = .str key.mat.kty.name ∧
        materialInit cr key.mat.kty d = .ok key.mat := by
  constructor
  · intro h
    unfold Jwk.init at h
    split at h
    · rename_i d
      split at h
      · cases h
      split at h
      · cases h
      · cases h
      · rename_i s hs
        split at h
        · cases h
        · rename_i k hk
          split at h
          · cases h
          · rename_i m hm
            cases h
            have hk' := materialInit_kty hm
            refine ⟨d, rfl, rfl, ?_, ?_⟩
            · rw [hs, Kty.ofName_some hk, ← hk']
            · simp only [hk', hm]
      · cases h
    · cases h
  · rintro ⟨d, rfl, h1, h2, h3⟩
    unfold Jwk.init
    simp only
    have hne : d ≠ [] := by
      rintro rfl
      simp [dget] at h2
    rw [if_neg hne, h2]
    simp only [Kty.ofName_name, h3]
    obtain ⟨kd, km⟩ := key
    simp only at h1
    rw [h1]

/-- The members of a loaded key that name its type agree with the key object. -/
structure KeyInv (key : Jwk) : Prop where
  kty : dget key.data (py! "kty") = .str key.mat.kty.name
  crv : ∀ c x y d, key.mat = .ec c x y d → dget key.data (py! "crv") = .str c.name

theorem keyInv_of_init {cr : Crypto} {v : Val} {key : Jwk} (h : Jwk.init cr v = .ok key) :
    KeyInv key := by
  obtain ⟨d, rfl, h1, h2, h3⟩ := jwkInit_ok.mp h
  have full : ∀ k s, s ≠ [] → dget d k = .str s → dget key.data k = .str s := by
    intro k s hs hk
    rw [h1, truthy_dget_fullDict, hk]
    rw [hk]
    cases s with
    | nil => exact absurd rfl hs
    | cons => rfl
  refine ⟨full _ _ (by cases key.mat.kty <;> decide) h2, ?_⟩
  intro c x y o hm
  rw [hm] at h3
  obtain ⟨c', x', y', o', he, hc, -⟩ := ecInit_ok h3
  cases he
  exact full _ _ (by cases c <;> decide) hc

open Spec

/-- A key accepted by the algorithm has the right type. -/
theorem algFits_of_validate {a : JwsAlg} {key : Jwk} (hi : KeyInv key) (hne : a ≠ .none)
    (h : a.validateKey key = .ok ()) : AlgFits a.name key.mat := by
  unfold JwsAlg.validateKey at h
  simp only at h
  split at h
  · cases h
  split at h
  · cases h
  rename_i _ hk
  rw [hi.kty] at hk
  obtain ⟨kd, m⟩ := key
  simp only at hk h hi ⊢
  have hcrv := hi.crv
  simp only at hcrv
  cases m with
  | oct s =>
    cases a with
    | none => exact absurd rfl hne
    | hs hh => cases hh <;> constructor
    | rs hh => exfalso; simp [Material.kty, Kty.name, JwsAlg.keyType, Val.pyEq] at hk
    | es hh => exfalso; simp [Material.kty, Kty.name, JwsAlg.keyType, Val.pyEq] at hk
    | ps hh => exfalso; simp [Material.kty, Kty.name, JwsAlg.keyType, Val.pyEq] at hk
  | rsa n e p =>
    cases a with
    | none => exact absurd rfl hne
    | hs hh => exfalso; simp [Material.kty, Kty.name, JwsAlg.keyType, Val.pyEq] at hk
    | rs hh => cases hh <;> constructor
    | es hh => exfalso; simp [Material.kty, Kty.name, JwsAlg.keyType, Val.pyEq] at hk
    | ps hh => cases hh <;> constructor
  | ec c x y d =>
    cases a with
    | none => exact absurd rfl hne
    | hs hh => exfalso; simp [Material.kty, Kty.name, JwsAlg.keyType, Val.pyEq] at hk
    | rs hh => exfalso; simp [Material.kty, Kty.name, JwsAlg.keyType, Val.pyEq] at hk
    | ps hh => exfalso; simp [Material.kty, Kty.name, JwsAlg.keyType, Val.pyEq] at hk
    | es hh =>
      simp only at h
      rw [hcrv c x y d rfl] at h
      split at h
      · cases h
      · rename_i hc
        simp only [Bool.not_eq_true, Bool.not_eq_false'] at hc
        have hc := pyEq_str.mp hc
        cases c <;> cases hh <;>
          first | constructor | (exfalso; revert hc; simp [Curve.name, curveOf])

theorem sigOk_of_verify {cr : Crypto} {a : JwsAlg} {key : Jwk} {sb msg : Bytes} (hi : KeyInv key)
    (hne : a ≠ .none) (h : a.verify cr sb msg key = .ok ()) :
    ∃ raw, b64urlDecode sb = .ok raw ∧ SigOk cr a.name key.mat msg raw := by
  unfold JwsAlg.verify at h
  split at h
  · rename_i hp
    cases a <;> simp [JwsAlg.params] at hp hne
  · rename_i hh pad hp
    split at h
    · cases h
    rename_i hv
    split at h
    · cases h
    · cases h
    · rename_i raw hraw
      refine ⟨raw, hraw, ?_⟩
      have hfit := algFits_of_validate hi hne hv
      obtain ⟨kd, m⟩ := key
      simp only at h hfit ⊢
      generalize hn : a.name = nm at hfit ⊢
      have ha := JwsAlg.ofName_name a
      rw [hn] at ha
      cases hfit with
      | hs256 | hs384 | hs512 =>
        cases ha
        cases hp
        simp only [Material.verify] at h
        split at h
        · rename_i e; subst e; constructor
        · cases h
      | es256 | es384 | es512 =>
        cases ha
        cases hp
        simp only [Material.verify] at h
        split at h
        · constructor; assumption
        · cases h
      | _ =>
        cases ha
        cases hp
        simp only [Material.verify] at h
        split at h
        · cases h
        · constructor; assumption
        · cases h

theorem params_none {a : JwsAlg} : a.params = none ↔ a = .none := by
  cases a <;> simp [JwsAlg.params]

theorem algFits_of_sign {cr : Crypto} {a : JwsAlg} {key : Jwk} {msg s : Bytes} {seed : Nat}
    (hi : KeyInv key) (hne : a ≠ .none) (h : a.sign cr msg key seed = .ok s) :
    AlgFits a.name key.mat := by
  unfold JwsAlg.sign at h
  split at h
  · rename_i hp; exact absurd (params_none.mp hp) hne
  · split at h
    · cases h
    · exact algFits_of_validate hi hne (by assumption)

/-- With a loaded key the only foreign exception of `verify` is one of the RSA primitive. -/
theorem algVerify_error' {cr : Crypto} {a : JwsAlg} {sb msg : Bytes} {key : Jwk} {e : Exc}
    (hi : KeyInv key) (h : a.verify cr sb msg key = .error e) :
    e.isJose = true ∨ (∃ n ex pad hash sig, cr.rsaVerify n ex pad hash msg sig = .error e) := by
  unfold JwsAlg.verify at h
  split at h
  · cases h
  · rename_i hash pad hp
    have hne : a ≠ .none := by
      rintro rfl; simp [JwsAlg.params] at hp
    split at h
    · rename_i hv
      cases h
      unfold JwsAlg.validateKey at hv
      simp only at hv
      left
      repeat' split at hv
      all_goals cases hv
      all_goals rfl
    · rename_i hv
      have hfit := algFits_of_validate hi hne hv
      split at h
      · cases h; exact Or.inl rfl
      · rename_i hne hd
        exact absurd (b64urlDecode_error hd) (by
          intro hh; subst hh; exact hne rfl)
      · rename_i raw hraw
        obtain ⟨kd, m⟩ := key
        simp only at h hfit
        generalize hn : a.name = nm at hfit
        have ha := JwsAlg.ofName_name a
        rw [hn] at ha
        clear hn hv hne
        cases hfit with
        | hs256 | hs384 | hs512 | es256 | es384 | es512 =>
          cases ha; cases hp
          simp only [Material.verify] at h
          split at h
          · cases h
          · cases h; exact Or.inl rfl
        | _ =>
          cases ha; cases hp
          simp only [Material.verify] at h
          split at h
          · cases h; exact Or.inr ⟨_, _, _, _, _, by assumption⟩
          · cases h
          · cases h; exact Or.inl rfl

end Psion
