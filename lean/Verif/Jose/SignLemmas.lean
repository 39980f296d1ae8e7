import Verif.Jose.KeyLemmas
import Verif.Spec.Sign

/-! Helper lemmas: exactly which keys sign, and exactly which tokens are accepted. -/

namespace Psion

open Spec

theorem signOrVerify {o : Val} : o.inList [.str (py! "sign"), .str (py! "verify")] = true ↔
    o = .str (py! "sign") ∨ o = .str (py! "verify") := by
  simp only [Val.inList, List.any_cons, List.any_nil, Bool.or_false, Bool.or_eq_true]
  rw [pyEq_str_left, pyEq_str_left]

/-- The key operations are checked like this. -/
theorem opsCheck {v : Val} :
    (if v.truthy then
      match iterVal v with
      | .error e => .error e
      | .ok l =>
        if l.any (fun op => !op.inList [.str (py! "sign"), .str (py! "verify")]) then .error (.jose .invalidKey) else .ok ()
      else .ok () : Res Unit) = .ok () ↔
    v.truthy = false ∨ (∃ l, v = .list l ∧ ∀ o ∈ l, o = .str (py! "sign") ∨ o = .str (py! "verify")) ∨
      (∃ d, v = .dict d ∧ ∀ kv ∈ d, kv.1 = py! "sign" ∨ kv.1 = py! "verify") := by
  have any : ∀ l : List Val, (if l.any (fun op => !op.inList [.str (py! "sign"), .str (py! "verify")]) then
      .error (.jose .invalidKey) else .ok () : Res Unit) = .ok () ↔ ∀ o ∈ l, o = .str (py! "sign") ∨ o = .str (py! "verify") := by
    intro l
    constructor
    · intro h o ho
      split at h
      · cases h
      · rename_i hn
        rw [← signOrVerify]
        cases hi : o.inList [.str (py! "sign"), .str (py! "verify")] with
        | true => rfl
        | false => exact absurd (List.any_eq_true.mpr ⟨o, ho, by rw [hi]; rfl⟩) hn
    · intro h
      rw [if_neg]
      intro hn
      obtain ⟨o, ho, hx⟩ := List.any_eq_true.mp hn
      rw [signOrVerify.mpr (h o ho)] at hx
      cases hx
  cases ht : v.truthy with
  | false => simp
  | true =>
    rw [if_pos rfl]
    cases v with
    | list l =>
      simp only [iterVal]
      rw [any]
      simp
    | dict d =>
      simp only [iterVal]
      rw [any]
      constructor
      · intro h
        refine Or.inr (Or.inr ⟨d, rfl, fun kv hkv => ?_⟩)
        have := h (.str kv.1) (List.mem_map.mpr ⟨kv, hkv, rfl⟩)
        simpa using this
      · rintro (h | ⟨l, h, -⟩ | ⟨d', h, h'⟩)
        · cases h
        · cases h
        · cases h
          intro o ho
          obtain ⟨kv, hkv, rfl⟩ := List.mem_map.mp ho
          simpa using h' kv hkv
    | str s =>
      simp only [iterVal]
      rw [any]
      constructor
      · intro h
        cases s with
        | nil => cases ht
        | cons c s =>
          have := h (.str [c]) (by simp)
          simp at this
      · rintro (h | ⟨l, h, -⟩ | ⟨d', h, -⟩) <;> cases h
    | _ => simp [iterVal]

/-- A truthy value must be equal to a given text. -/
theorem truthy_or {v w : Val} {s : PyStr} (hw : w = .str s) :
    ¬ ((v.truthy && !v.pyEq w) = true) ↔ v.truthy = false ∨ v = w := by
  subst hw
  cases ht : v.truthy with
  | false => simp
  | true =>
    simp only [Bool.true_and, Bool.not_eq_true, Bool.not_eq_false', reduceCtorEq, false_or]
    exact pyEq_str

/-- `_validate_key` accepts exactly the keys whose members permit the use. -/
theorem validateKey_suits {v : Val} {h : JwsHeader} (hh : JwsHeader.init v = .ok h) {key : Jwk} :
    validateKey key h = .ok () ↔ Suits key.data h.data := by
  have halg := dget_of_get (header_alg hh)
  have hkid : Dict.get h.data (py! "kid") = none ∨ ∃ c s, Dict.get h.data (py! "kid") = some (.str (c :: s)) := by
    obtain ⟨hd, -, hfull, -, -, -, hk, -⟩ := headerInit_ok.mp hh
    rw [hfull]
    rcases validateText_ok.mp hk with hk | ⟨c, s, hk⟩
    · exact Or.inl (get_fullDict_none hk)
    · exact Or.inr ⟨c, s, get_fullDict_some hk (by simp)⟩
  have hkid' : ¬ (((dget h.data (py! "kid")).truthy && !(dget key.data (py! "kid")).pyEq (dget h.data (py! "kid"))) = true) ↔
      Dict.get h.data (py! "kid") = none ∨ dget key.data (py! "kid") = dget h.data (py! "kid") := by
    rcases hkid with hk | ⟨c, s, hk⟩
    · have : dget h.data (py! "kid") = .none := by simp [dget, hk]
      simp [hk, this, Val.truthy]
    · rw [dget_of_get hk, hk]
      simp only [Val.truthy, List.isEmpty_cons, Bool.not_false, Bool.true_and, Bool.not_eq_true, Bool.not_eq_false',
        reduceCtorEq, false_or]
      exact pyEq_str
  unfold validateKey
  dsimp only
  constructor
  · intro hv
    split at hv
    · cases hv
    rename_i h1
    split at hv
    · cases hv
    rename_i h2
    split at hv
    · cases hv
    rename_i h3
    exact ⟨(truthy_or halg).mp h1, hkid'.mp h2, (truthy_or rfl).mp h3, opsCheck.mp hv⟩
  · rintro ⟨h1, h2, h3, h4⟩
    rw [if_neg ((truthy_or halg).mpr h1), if_neg (hkid'.mpr h2), if_neg ((truthy_or rfl).mpr h3)]
    exact opsCheck.mpr h4

/-- The check of the algorithm classes. -/
theorem algValidateKey_ok {a : JwsAlg} {key : Jwk} (hi : KeyInv key)
    (halg : (dget key.data (py! "alg")).truthy = false ∨ dget key.data (py! "alg") = .str a.name)
    (hfit : AlgFits a.name key.mat) : a.validateKey key = .ok () := by
  have h2 := hi.kty
  have h3 := hi.crv
  have ho := JwsAlg.ofName_name a
  obtain ⟨kd, m⟩ := key
  unfold JwsAlg.validateKey
  simp only at hfit h2 h3 halg ⊢
  rw [if_neg ((truthy_or rfl).mpr halg), h2]
  clear halg
  generalize hn : a.name = nm at hfit ho
  clear hn
  cases hfit with
  | es256 x y d =>
    cases ho
    rw [h3 _ _ _ _ rfl]
    simp [Material.kty, Kty.name, JwsAlg.keyType, Val.pyEq, Curve.name, curveOf]
  | es384 x y d =>
    cases ho
    rw [h3 _ _ _ _ rfl]
    simp [Material.kty, Kty.name, JwsAlg.keyType, Val.pyEq, Curve.name, curveOf]
  | es512 x y d =>
    cases ho
    rw [h3 _ _ _ _ rfl]
    simp [Material.kty, Kty.name, JwsAlg.keyType, Val.pyEq, Curve.name, curveOf]
  | _ =>
    cases ho
    simp [Material.kty, Kty.name, JwsAlg.keyType, Val.pyEq]

theorem algFits_of_sigOk {cr : Crypto} {a : PyStr} {m : Material} {msg sig : Bytes} (h : SigOk cr a m msg sig) : AlgFits a m := by
  cases h <;> constructor

theorem algFits_of_signs {cr : Crypto} {seed : Nat} {a : PyStr} {m : Material} {msg sig : Bytes}
    (h : Signs cr seed a m msg sig) : AlgFits a m := by
  cases h <;> constructor

/-- Signing with a usable key. -/
theorem sign_iff {cr : Crypto} {a : JwsAlg} {key : Jwk} {seed : Nat} {msg s : Bytes} (hi : KeyInv key) (hne : a ≠ .none)
    (halg : (dget key.data (py! "alg")).truthy = false ∨ dget key.data (py! "alg") = .str a.name) :
    a.sign cr msg key seed = .ok s ↔ ∃ sig, Signs cr seed a.name key.mat msg sig ∧ s = b64urlEncode sig := by
  constructor
  · intro h
    have hfit := algFits_of_sign hi hne h
    unfold JwsAlg.sign at h
    split at h
    · rename_i hp; exact absurd (params_none.mp hp) hne
    · rename_i hash pad hp
      split at h
      · cases h
      split at h
      · cases h
      rename_i sig hsig
      cases h
      refine ⟨sig, ?_, rfl⟩
      have ho := JwsAlg.ofName_name a
      obtain ⟨kd, m⟩ := key
      simp only at hfit hsig ⊢
      generalize hn : a.name = nm at hfit ho ⊢
      clear hn
      cases hfit with
      | hs256 | hs384 | hs512 =>
        cases ho; cases hp; cases hsig; constructor
      | es256 x y d | es384 x y d | es512 x y d =>
        cases ho; cases hp
        cases d with
        | none => cases hsig
        | some d => cases hsig; constructor
      | rs256 n e p | rs384 n e p | rs512 n e p | ps256 n e p | ps384 n e p | ps512 n e p =>
        cases ho; cases hp
        cases p with
        | none => cases hsig
        | some r => constructor; exact hsig
  · rintro ⟨sig, hs, rfl⟩
    have hv := algValidateKey_ok hi halg (algFits_of_signs hs)
    unfold JwsAlg.sign
    rw [hv]
    have ho := JwsAlg.ofName_name a
    obtain ⟨kd, m⟩ := key
    simp only at hs ⊢
    generalize hn : a.name = nm at hs ho
    clear hn hv
    cases hs <;> cases ho <;> simp only [JwsAlg.params, Material.sign, *]

/-- Verifying with a usable key. -/
theorem verify_iff {cr : Crypto} {a : JwsAlg} {key : Jwk} {msg sb : Bytes} (hi : KeyInv key) (hne : a ≠ .none)
    (halg : (dget key.data (py! "alg")).truthy = false ∨ dget key.data (py! "alg") = .str a.name) :
    a.verify cr sb msg key = .ok () ↔ ∃ raw, b64urlDecode sb = .ok raw ∧ SigOk cr a.name key.mat msg raw := by
  constructor
  · exact sigOk_of_verify hi hne
  · rintro ⟨raw, hraw, hs⟩
    have hv := algValidateKey_ok hi halg (algFits_of_sigOk hs)
    unfold JwsAlg.verify
    rw [hv, hraw]
    have ho := JwsAlg.ofName_name a
    obtain ⟨kd, m⟩ := key
    simp only at hs ⊢
    generalize hn : a.name = nm at hs ho
    clear hn hv hraw
    cases hs <;> cases ho <;> simp only [JwsAlg.params, Material.verify, *, if_true]

end Psion
