import Verif.Jose.SignLemmas
import Verif.Jose.JwtLemmas
import Verif.Spec.JoseErrors

/-! Helper lemmas: which errors the JOSE part raises. -/

namespace Psion

open Spec

theorem validateText_error {h : Dict PyStr Val} {k : PyStr} {e : Exc} (he : validateText h k = .error e) : e = .jose .invalidJWSHeader := by
  unfold validateText at he
  split at he <;> cases he
  rfl

theorem validateCrit_error {h : Dict PyStr Val} {e : Exc} (he : validateCrit h = .error e) : e = .jose .invalidJWSHeader := by
  unfold validateCrit at he
  split at he
  · cases he
  · split at he
    · cases he; rfl
    split at he
    · cases he; rfl
    split at he
    · cases he; rfl
    · cases he
  · cases he; rfl

theorem validateKey_invalid {key : Jwk} {h : JwsHeader} (ho : OpsList key.data) {e : Exc} (he : validateKey key h = .error e) :
    e = .jose .invalidKey := by
  unfold validateKey at he
  dsimp only at he
  split at he
  · cases he; rfl
  split at he
  · cases he; rfl
  split at he
  · cases he; rfl
  split at he
  · rename_i ht
    rcases ho with ho | ⟨l, ho⟩
    · rw [ho] at ht; cases ht
    · rw [ho] at he
      simp only [iterVal] at he
      split at he
      · cases he; rfl
      · cases he
  · cases he

theorem algValidateKey_error {a : JwsAlg} {key : Jwk} {e : Exc} (he : a.validateKey key = .error e) : e = .jose .invalidKey := by
  unfold JwsAlg.validateKey at he
  dsimp only at he
  split at he
  · cases he; rfl
  split at he
  · cases he; rfl
  split at he
  · split at he
    · cases he; rfl
    · cases he
  · cases he

/-- The key cannot be used with the algorithm. -/
theorem algValidateKey_unfit {a : JwsAlg} {key : Jwk} (hi : KeyInv key) (hne : a ≠ .none) (hf : ¬ AlgFits a.name key.mat) :
    a.validateKey key = .error (.jose .invalidKey) := by
  cases h : a.validateKey key with
  | error e => rw [algValidateKey_error h]
  | ok u => exact absurd (algFits_of_validate hi hne h) hf

theorem matVerify_error {cr : Crypto} (hd : Decides cr) {a : JwsAlg} {key : Jwk} {raw msg : Bytes} {h : Hash} {pad : Option Padding}
    (hp : a.params = some (h, pad)) (hf : AlgFits a.name key.mat) {e : Exc} (he : key.mat.verify cr raw msg h pad = .error e) :
    e = .jose .invalidSignature := by
  have ho := JwsAlg.ofName_name a
  obtain ⟨kd, m⟩ := key
  simp only at hf he
  generalize hn : a.name = nm at hf ho
  clear hn
  cases hf <;> cases ho <;> cases hp <;> simp only [Material.verify] at he <;> split at he <;>
    first
    | (cases he; rfl)
    | (cases he; done)
    | (rename_i hr; exact absurd hr (hd _ _ _ _ _ _ _))

/-- What the verification says: a key that cannot be used is an invalid key, otherwise an invalid signature is an invalid signature. -/
theorem verify_error {cr : Crypto} (hd : Decides cr) {a : JwsAlg} {key : Jwk} (hi : KeyInv key) (hne : a ≠ .none)
    (halg : (dget key.data (py! "alg")).truthy = false ∨ dget key.data (py! "alg") = .str a.name) {sb msg : Bytes} {e : Exc}
    (he : a.verify cr sb msg key = .error e) :
    (¬ AlgFits a.name key.mat ∧ e = .jose .invalidKey) ∨
      (AlgFits a.name key.mat ∧ (¬ ∃ sig, b64urlDecode sb = .ok sig ∧ SigOk cr a.name key.mat msg sig) ∧ e = .jose .invalidSignature) := by
  have hnot : ¬ ∃ sig, b64urlDecode sb = .ok sig ∧ SigOk cr a.name key.mat msg sig := by
    intro h
    rw [(verify_iff hi hne halg).mpr h] at he
    cases he
  by_cases hf : AlgFits a.name key.mat
  · right
    refine ⟨hf, hnot, ?_⟩
    unfold JwsAlg.verify at he
    split at he
    · rename_i hp; exact absurd (params_none.mp hp) hne
    · rename_i h pad hp
      rw [algValidateKey_ok hi halg hf] at he
      simp only at he
      split at he
      · cases he; rfl
      · rename_i e' hb hx
        exact absurd (b64urlDecode_error hx) hb
      · exact matVerify_error hd hp hf he
  · left
    refine ⟨hf, ?_⟩
    unfold JwsAlg.verify at he
    split at he
    · rename_i hp; exact absurd (params_none.mp hp) hne
    · rw [algValidateKey_unfit hi hne hf] at he
      cases he; rfl

/-- Signing without the private part. -/
theorem matSign_error {cr : Crypto} {a : JwsAlg} {m : Material} {msg : Bytes} {seed : Nat} {h : Hash} {pad : Option Padding}
    (hp : a.params = some (h, pad)) (hf : AlgFits a.name m) (hs : ¬ HasSecretPart m) :
    m.sign cr msg h pad seed = .error (.jose .invalidKey) := by
  have ho := JwsAlg.ofName_name a
  generalize hn : a.name = nm at hf ho
  clear hn
  cases hf with
  | hs256 | hs384 | hs512 => exact absurd trivial hs
  | es256 x y d | es384 x y d | es512 x y d =>
    cases ho; cases hp
    cases d with
    | none => rfl
    | some d => exact absurd (by simp [HasSecretPart]) hs
  | rs256 n e p | rs384 n e p | rs512 n e p | ps256 n e p | ps384 n e p | ps512 n e p =>
    cases ho; cases hp
    cases p with
    | none => rfl
    | some r => exact absurd (by simp [HasSecretPart]) hs

theorem checkAud_error {v : Val} {e : Exc} (h : checkAud v = .error e) : e = .jose .invalidJWTClaim := by
  unfold checkAud at h
  split at h
  · split at h
    · cases h
    · split at h
      · cases h; rfl
      · cases h
    · cases h; rfl
  · cases h

theorem checkText_error {v : Val} {e : Exc} (h : checkText v = .error e) : e = .jose .invalidJWTClaim := by
  unfold checkText at h
  split at h <;> cases h
  rfl

theorem checkIat_error {now : Int} {v : Val} {e : Exc} (h : checkIat now v = .error e) : e = .jose .invalidJWTClaim := by
  unfold checkIat at h
  split at h
  · split at h
    · split at h
      · cases h; rfl
      · cases h
    · cases h; rfl
  · cases h

theorem checkExp_error {now : Int} {v : Val} {e : Exc} (h : checkExp now v = .error e) :
    e = .jose .invalidJWTClaim ∨ e = .jose .expiredToken ∧ ∃ i, v = .int i ∧ i ≠ 0 ∧ i ≤ now := by
  unfold checkExp at h
  split at h
  · rename_i ht
    split at h
    · rename_i i
      split at h
      · rename_i hi
        cases h
        exact Or.inr ⟨rfl, i, rfl, by rintro rfl; simp [Val.truthy] at ht, hi⟩
      · cases h
    · cases h; exact Or.inl rfl
  · cases h

theorem checkNbf_error {now : Int} {v : Val} {e : Exc} (h : checkNbf now v = .error e) :
    e = .jose .invalidJWTClaim ∨ e = .jose .notYetValidToken ∧ ∃ i, v = .int i ∧ i ≠ 0 ∧ now < i := by
  unfold checkNbf at h
  split at h
  · rename_i ht
    split at h
    · rename_i i
      split at h
      · rename_i hi
        cases h
        exact Or.inr ⟨rfl, i, rfl, by rintro rfl; simp [Val.truthy] at ht, hi⟩
      · cases h
    · cases h; exact Or.inl rfl
  · cases h

theorem validateClaims_error {c o : Dict PyStr Val} {e : Exc} (h : validateClaims c o = .error e) : e = .jose .invalidJWTClaim := by
  induction o with
  | nil => cases h
  | cons p o ih =>
    obtain ⟨k, v⟩ := p
    unfold validateClaims at h
    split at h
    · cases h; rfl
    · cases h
    · exact ih h

theorem timeOk_exp {now : Int} {c : Dict PyStr Val} : checkExp now (dget c (py! "exp")) = .ok () ↔ TimeOk c (py! "exp") (now < ·) := by
  rw [checkExp_ok]
  unfold TimeOk
  constructor
  · rintro ⟨h | ⟨i, h⟩, h'⟩
    · exact Or.inl h
    · by_cases hi : i = 0
      · subst hi; rw [h]; exact Or.inl rfl
      · exact Or.inr ⟨i, h, h' i h hi⟩
  · rintro (h | ⟨i, h, hi⟩)
    · refine ⟨Or.inl h, ?_⟩
      intro i hx h0
      rw [hx] at h
      simp [Val.truthy, h0] at h
    · refine ⟨Or.inr ⟨i, h⟩, ?_⟩
      intro j hx _
      rw [h] at hx
      cases hx
      exact hi

theorem timeOk_iat {now : Int} {c : Dict PyStr Val} : checkIat now (dget c (py! "iat")) = .ok () ↔ TimeOk c (py! "iat") (· ≤ now) := by
  rw [checkIat_ok]
  unfold TimeOk
  constructor
  · rintro ⟨h | ⟨i, h⟩, h'⟩
    · exact Or.inl h
    · by_cases hi : i = 0
      · subst hi; rw [h]; exact Or.inl rfl
      · exact Or.inr ⟨i, h, h' i h hi⟩
  · rintro (h | ⟨i, h, hi⟩)
    · refine ⟨Or.inl h, ?_⟩
      intro i hx h0
      rw [hx] at h
      simp [Val.truthy, h0] at h
    · refine ⟨Or.inr ⟨i, h⟩, ?_⟩
      intro j hx _
      rw [h] at hx
      cases hx
      exact hi

/-! ### keys -/

theorem b64ToIntV_foreign {v : Val} {x : JoseExc} : b64ToIntV v ≠ .error (.jose x) := by
  intro h
  cases v with
  | str s =>
    simp only [b64ToIntV] at h
    split at h
    · rename_i e he
      cases h
      unfold b64ToInt at he
      split at he
      · rename_i e' he'
        cases he
        unfold toBytesAscii at he'
        split at he' <;> cases he'
      · split at he
        · rename_i e' he'
          cases he
          cases b64urlDecode_error he'
        · split at he <;> cases he
    · cases h
  | _ => cases h

theorem b64ToNat_foreign {v : Val} {x : JoseExc} : b64ToNat v ≠ .error (.jose x) := by
  intro h
  unfold b64ToNat at h
  split at h
  · rename_i e he
    cases h
    exact b64ToIntV_foreign he
  · cases h
  · cases h

theorem arg_foreign {d : Dict PyStr Val} {k : PyStr} {x : JoseExc} : arg d k ≠ .error (.jose x) := by
  intro h
  unfold arg at h
  split at h <;> cases h

theorem octInit_foreign {cr : Crypto} {d : Dict PyStr Val} {x : JoseExc} : octInit cr d ≠ .error (.jose x) := by
  intro h
  unfold octInit at h
  split at h
  · cases h
  simp only [bind_error_iff] at h
  rcases h with h | ⟨k, -, h | ⟨o, -, h⟩⟩
  · exact arg_foreign h
  · unfold toBytesV at h
    split at h <;> try cases h
    split at h
    · rename_i e he
      cases h
      cases utf8Encode_error he
    · cases h
  · split at h
    · cases h
    · rw [bind_error_iff] at h
      rcases h with h | ⟨_, _, h⟩
      · cases b64urlDecode_error h
      · cases h

theorem numOr_foreign {o : Option Nat} {r : Res Nat} {x : JoseExc} (hr : r ≠ .error (.jose x)) : numOr o r ≠ .error (.jose x) := by
  intro h
  unfold numOr at h
  split at h
  · exact hr h
  · cases h

theorem rsaPrivate_foreign {cr : Crypto} (hf : Foreign cr) {n e : Nat} {d : Dict PyStr Val} {x : JoseExc} :
    rsaPrivate cr n e d ≠ .error (.jose x) := by
  intro h
  unfold rsaPrivate at h
  simp only [bind_error_iff] at h
  rcases h with h | ⟨_, _, h | ⟨_, _, h | ⟨_, _, h | ⟨_, _, h | ⟨_, _, h | ⟨_, _, h | ⟨_, _, h | ⟨_, _, h | ⟨_, _, h | ⟨_, _, h⟩⟩⟩⟩⟩⟩⟩⟩⟩⟩
  · exact b64ToNat_foreign h
  · exact b64ToIntV_foreign h
  · exact b64ToIntV_foreign h
  · exact b64ToIntV_foreign h
  · exact b64ToIntV_foreign h
  · exact b64ToIntV_foreign h
  · split at h
    · exact hf.recover _ _ _ _ h
    · cases h
  · exact numOr_foreign (hf.dmp1 _ _ _) h
  · exact numOr_foreign (hf.dmq1 _ _ _) h
  · exact numOr_foreign (hf.iqmp _ _ _) h
  · cases h

theorem rsaInit_foreign {cr : Crypto} (hf : Foreign cr) {d : Dict PyStr Val} {x : JoseExc} : rsaInit cr d ≠ .error (.jose x) := by
  intro h
  unfold rsaInit at h
  split at h
  · cases h
  simp only [bind_error_iff] at h
  rcases h with h | ⟨n, -, h | ⟨e, -, h | ⟨nn, -, h | ⟨en, -, h⟩⟩⟩⟩
  · exact arg_foreign h
  · exact arg_foreign h
  · exact b64ToIntV_foreign h
  · exact b64ToIntV_foreign h
  · split at h
    · split at h
      · cases h
      split at h
      · split at h
        · rename_i ex hx
          cases h
          exact rsaPrivate_foreign hf hx
        · split at h <;> cases h
      · cases h
    · cases h

/-- Of the errors of the library only `InvalidKey`, and only for a curve that is not known. -/
theorem ecInit_jose {cr : Crypto} {d : Dict PyStr Val} {x : JoseExc} (h : ecInit cr d = .error (.jose x)) :
    x = .invalidKey ∧ Dict.mem d (py! "self") = false ∧ (∃ c, Dict.get d (py! "crv") = some c ∧ ¬ Unhashable c ∧ ∀ t ∈ curves, c ≠ .str t) ∧
      Dict.get d (py! "x") ≠ none ∧ Dict.get d (py! "y") ≠ none := by
  have arg_ok : ∀ {k v}, arg d k = .ok v → Dict.get d k = some v := by
    intro k v h
    unfold arg at h
    split at h
    · cases h; assumption
    · cases h
  unfold ecInit at h
  split at h
  · cases h
  rename_i hself
  rw [bind_error_iff] at h
  rcases h with h | ⟨crv, hcrv, h⟩
  · exact absurd h arg_foreign
  rw [bind_error_iff] at h
  rcases h with h | ⟨xv, hxv, h⟩
  · exact absurd h arg_foreign
  rw [bind_error_iff] at h
  rcases h with h | ⟨yv, hyv, h⟩
  · exact absurd h arg_foreign
  have hx : Dict.get d (py! "x") ≠ none := by rw [arg_ok hxv]; simp
  have hy : Dict.get d (py! "y") ≠ none := by rw [arg_ok hyv]; simp
  have hs : Dict.mem d (py! "self") = false := by simpa using hself
  cases crv with
  | str s =>
    simp only [Val.hashable, Bool.not_true, Bool.false_eq_true, if_false] at h
    split at h
    · rename_i hn
      cases h
      refine ⟨rfl, hs, ⟨_, arg_ok hcrv, ?_, ?_⟩, hx, hy⟩
      · rintro (⟨_, h⟩ | ⟨_, h⟩) <;> cases h
      · intro t ht heq
        cases heq
        revert hn
        simp only [curves, List.mem_cons, List.not_mem_nil, or_false] at ht
        rcases ht with rfl | rfl | rfl <;> decide
    · exfalso
      simp only [bind_error_iff] at h
      rcases h with h | ⟨xn, _, h | ⟨yn, _, h⟩⟩
      · exact b64ToIntV_foreign h
      · exact b64ToIntV_foreign h
      · split at h
        · split at h
          · cases h
          · split at h
            · simp only [bind_error_iff] at h
              rcases h with h | ⟨_, _, h⟩
              · exact b64ToNat_foreign h
              · split at h <;> cases h
            · cases h
        · cases h
  | list l => cases h
  | dict m => cases h
  | _ =>
    cases h
    refine ⟨rfl, hs, ⟨_, arg_ok hcrv, ?_, ?_⟩, hx, hy⟩
    · rintro (⟨_, h⟩ | ⟨_, h⟩) <;> cases h
    · intro t _ h
      cases h

/-- An unknown curve is an invalid key. -/
theorem ecInit_unknown {cr : Crypto} {d : Dict PyStr Val} (hs : Dict.mem d (py! "self") = false) {c : Val} (hc : Dict.get d (py! "crv") = some c)
    (hu : ¬ Unhashable c) (ht : ∀ t ∈ curves, c ≠ .str t) (hx : Dict.get d (py! "x") ≠ none) (hy : Dict.get d (py! "y") ≠ none) :
    ecInit cr d = .error (.jose .invalidKey) := by
  obtain ⟨x, hx⟩ := Option.ne_none_iff_exists'.mp hx
  obtain ⟨y, hy⟩ := Option.ne_none_iff_exists'.mp hy
  unfold ecInit
  rw [hs]
  simp only [Bool.false_eq_true, if_false, arg, hc, hx, hy, ok_bind]
  cases c with
  | list l => exact absurd (Or.inl ⟨l, rfl⟩) hu
  | dict m => exact absurd (Or.inr ⟨m, rfl⟩) hu
  | str s =>
    have : Curve.ofName s = none := by
      cases ho : Curve.ofName s with
      | none => rfl
      | some c =>
        rw [Curve.ofName_some ho] at ht
        exact absurd rfl (ht c.name (by cases c <;> decide))
    simp only [Val.hashable, Bool.not_true, Bool.false_eq_true, if_false, this]
  | _ => rfl

end Psion
