import Verif.Jose.KeyLemmas
import Verif.Py.JsonLemmas

/-! Helper lemmas: tokens and claims. -/

namespace Psion

open Spec

theorem checkAud_ok {v : Val} : checkAud v = .ok () ↔
    v.truthy = false ∨ (∃ s, v = .str s) ∨ ∃ l, v = .list l ∧ ∀ i ∈ l, ∃ s, i = .str s := by
  have hs : ∀ i : Val, i.isStr = true ↔ ∃ s, i = .str s := by
    intro i; cases i <;> simp [Val.isStr]
  unfold checkAud
  cases ht : v.truthy with
  | false => simp
  | true =>
    simp only [if_true, Bool.true_eq_false, false_or]
    cases v with
    | str s => simp
    | list l =>
      simp only
      constructor
      · intro h
        split at h
        · cases h
        · rename_i hn
          refine Or.inr ⟨l, rfl, fun i hi => (hs i).mp ?_⟩
          cases hv : i.isStr with
          | true => rfl
          | false => exact absurd (List.any_eq_true.mpr ⟨i, hi, by simp [hv]⟩) hn
      · rintro (⟨s, h⟩ | ⟨l', h, hall⟩)
        · cases h
        · cases h
          rw [if_neg]
          rw [List.any_eq_true]
          rintro ⟨i, hi, h⟩
          rw [(hs i).mpr (hall i hi)] at h
          cases h
    | _ => simp

theorem checkText_ok {v : Val} : checkText v = .ok () ↔ v = .none ∨ ∃ s, v = .str s := by
  cases v <;> simp [checkText]

theorem checkExp_ok {now : Int} {v : Val} : checkExp now v = .ok () ↔
    (v.truthy = false ∨ ∃ i, v = .int i) ∧ ∀ i, v = .int i → i ≠ 0 → now < i := by
  unfold checkExp
  cases v with
  | int i =>
    by_cases hi : i = 0
    · simp [Val.truthy, hi]
    · have ht : (Val.int i).truthy = true := by simp [Val.truthy, hi]
      simp only [ht, if_true]
      constructor
      · intro h
        split at h
        · cases h
        · exact ⟨Or.inr ⟨i, rfl⟩, by rintro j ⟨⟩ _; omega⟩
      · rintro ⟨-, h⟩
        have := h i rfl hi
        rw [if_neg (by omega)]
  | none => simp [Val.truthy]
  | bool b => cases b <;> simp [Val.truthy]
  | float f => cases hf : f.isZero <;> simp [Val.truthy, hf]
  | str s => cases s <;> simp [Val.truthy]
  | list s => cases s <;> simp [Val.truthy]
  | dict s => cases s <;> simp [Val.truthy]

theorem checkIat_ok {now : Int} {v : Val} : checkIat now v = .ok () ↔
    (v.truthy = false ∨ ∃ i, v = .int i) ∧ ∀ i, v = .int i → i ≠ 0 → i ≤ now := by
  unfold checkIat
  cases v with
  | int i =>
    by_cases hi : i = 0
    · simp [Val.truthy, hi]
    · have ht : (Val.int i).truthy = true := by simp [Val.truthy, hi]
      simp only [ht, if_true]
      constructor
      · intro h
        split at h
        · cases h
        · exact ⟨Or.inr ⟨i, rfl⟩, by rintro j ⟨⟩ _; omega⟩
      · rintro ⟨-, h⟩
        have := h i rfl hi
        rw [if_neg (by omega)]
  | none => simp [Val.truthy]
  | bool b => cases b <;> simp [Val.truthy]
  | float f => cases hf : f.isZero <;> simp [Val.truthy, hf]
  | str s => cases s <;> simp [Val.truthy]
  | list s => cases s <;> simp [Val.truthy]
  | dict s => cases s <;> simp [Val.truthy]

theorem checkNbf_ok {now : Int} {v : Val} : checkNbf now v = .ok () ↔
    (v.truthy = false ∨ ∃ i, v = .int i) ∧ ∀ i, v = .int i → i ≠ 0 → i ≤ now := by
  unfold checkNbf
  cases v with
  | int i =>
    by_cases hi : i = 0
    · simp [Val.truthy, hi]
    · have ht : (Val.int i).truthy = true := by simp [Val.truthy, hi]
      simp only [ht, if_true]
      constructor
      · intro h
        split at h
        · cases h
        · exact ⟨Or.inr ⟨i, rfl⟩, by rintro j ⟨⟩ _; omega⟩
      · rintro ⟨-, h⟩
        have := h i rfl hi
        rw [if_neg (by omega)]
  | none => simp [Val.truthy]
  | bool b => cases b <;> simp [Val.truthy]
  | float f => cases hf : f.isZero <;> simp [Val.truthy, hf]
  | str s => cases s <;> simp [Val.truthy]
  | list s => cases s <;> simp [Val.truthy]
  | dict s => cases s <;> simp [Val.truthy]

theorem validateDefaultClaims_ok {now : Int} {c : Dict PyStr Val} :
    validateDefaultClaims now c = .ok () ↔ ClaimTypes c ∧ InWindow now c := by
  unfold validateDefaultClaims
  simp only [bind_ok_iff]
  constructor
  · rintro ⟨⟨⟩, h1, ⟨⟩, h2, ⟨⟩, h3, ⟨⟩, h4, ⟨⟩, h5, ⟨⟩, h6, h7⟩
    rw [checkAud_ok] at h1
    rw [checkExp_ok] at h2
    rw [checkIat_ok] at h3
    rw [checkText_ok] at h4 h5 h7
    rw [checkNbf_ok] at h6
    refine ⟨⟨?_, h1, ?_⟩, ⟨h2.2, h3.2, h6.2⟩⟩
    · intro k hk
      simp only [List.mem_cons, List.not_mem_nil, or_false] at hk
      rcases hk with rfl | rfl | rfl
      · exact h4
      · exact h7
      · exact h5
    · intro k hk
      simp only [List.mem_cons, List.not_mem_nil, or_false] at hk
      rcases hk with rfl | rfl | rfl
      · exact h2.1
      · exact h3.1
      · exact h6.1
  · rintro ⟨⟨ht, ha, hd⟩, ⟨he, hi, hn⟩⟩
    refine ⟨(), checkAud_ok.mpr ha, (), checkExp_ok.mpr ⟨hd _ (by simp), he⟩, (),
      checkIat_ok.mpr ⟨hd _ (by simp), hi⟩, (), checkText_ok.mpr (ht _ (by simp)), (),
      checkText_ok.mpr (ht _ (by simp)), (), checkNbf_ok.mpr ⟨hd _ (by simp), hn⟩,
      checkText_ok.mpr (ht _ (by simp))⟩

/-- `JsonWebTokenClaims(claims, options)`. -/
theorem claimsInit_ok {now : Int} {v opts : Val} {r : Dict PyStr Val} :
    claimsInit now v opts = .ok r ↔
      ∃ c, v = .dict c ∧ c ≠ [] ∧ r = fullDict c ∧ ClaimTypes c ∧ InWindow now c ∧
        ∀ o, opts = .dict o → validateClaims c o = .ok () := by
  unfold claimsInit
  constructor
  · intro h
    split at h
    · rename_i c
      split at h
      · cases h
      · rename_i hne
        obtain ⟨⟨⟩, h1, h⟩ := bind_ok_iff.mp h
        obtain ⟨h2, h3⟩ := validateDefaultClaims_ok.mp h1
        split at h
        · rename_i o
          obtain ⟨⟨⟩, h4, h⟩ := bind_ok_iff.mp h
          cases h
          exact ⟨c, rfl, hne, rfl, h2, h3, by rintro o ⟨⟩; exact h4⟩
        · rename_i hno
          cases h
          exact ⟨c, rfl, hne, rfl, h2, h3, fun o ho => absurd ho (hno o)⟩
    · cases h
  · rintro ⟨c, rfl, hne, rfl, h2, h3, h4⟩
    simp only
    rw [if_neg hne]
    refine bind_ok_iff.mpr ⟨(), validateDefaultClaims_ok.mpr ⟨h2, h3⟩, ?_⟩
    split
    · exact bind_ok_iff.mpr ⟨(), h4 _ rfl, rfl⟩
    · rfl

theorem jwtInit_ok {cr : Crypto} {now : Int} {claims header : Val} {t : Jwt} :
    Jwt.init cr now claims header = .ok t ↔
      JwsHeader.init header = .ok t.header ∧ claimsInit now claims .none = .ok t.claims ∧
        ∃ p, utf8Encode (jsonDumps cr.fe (.dict t.claims)) = .ok p ∧ t.jws = ⟨t.header, p⟩ := by
  unfold Jwt.init
  simp only [bind_ok_iff, pure_ok_iff]
  constructor
  · rintro ⟨h, h1, c, h2, p, h3, rfl⟩
    exact ⟨h1, h2, p, h3, rfl⟩
  · rintro ⟨h1, h2, p, h3, h4⟩
    refine ⟨_, h1, _, h2, p, h3, ?_⟩
    obtain ⟨a, b, c⟩ := t
    simp only at h4
    rw [h4]

/-- What `decode` returns. -/
theorem decode_ok {cr : Crypto} {n1 n2 : Int} {tok : Bytes} {key : Jwk} {alg : Option PyStr}
    {val : Bool} {opts : Val} {t : Jwt}
    (h : Jwt.decode cr n1 n2 tok key alg val opts = .ok t) :
    ∃ jws c, Jws.deserialize cr tok key alg val = .ok jws ∧
      jsonLoads cr.fe jws.payload = .ok (.dict c) ∧ c ≠ [] ∧ t.claims = fullDict c ∧
      ClaimTypes c ∧ InWindow n1 c ∧ ClaimTypes (fullDict c) ∧ InWindow n2 (fullDict c) ∧
      t.header = jws.header ∧
      (val = true → ∀ o, opts = .dict o → validateClaims c o = .ok ()) := by
  unfold Jwt.decode at h
  simp only [bind_ok_iff] at h
  obtain ⟨jws, h1, v, h2, c', h3, h4⟩ := h
  obtain ⟨c, rfl, hne, rfl, h5, h6, h7⟩ := claimsInit_ok.mp h3
  obtain ⟨g1, g2, -⟩ := jwtInit_ok.mp h4
  obtain ⟨c2, e, -, g3, g4, g5, -⟩ := claimsInit_ok.mp g2
  cases e
  rw [fullDict_idem] at g3
  refine ⟨jws, c, h1, h2, hne, g3, h5, h6, g4, g5, ?_, ?_⟩
  · obtain ⟨hb, pb, sb, raw, w, -, -, -, hi, -⟩ := deserialize_ok.mp h1
    rw [headerInit_idem hi] at g1
    exact (Except.ok.inj g1).symm
  · intro hv o ho
    apply h7
    rw [if_pos hv]; exact ho

/-! ### JSON objects start with a brace -/

theorem scanNumber_not_dict {fe : FloatEnv} {neg : Bool} {s r : PyStr} {d : List (PyStr × Val)} :
    scanNumber fe neg s ≠ some (.dict d, r) := by
  unfold scanNumber
  split
  · simp
  · simp only
    split <;> simp

theorem scanAtom_not_dict {fe : FloatEnv} {s r : PyStr} {d : List (PyStr × Val)} :
    scanAtom fe s ≠ some (.dict d, r) := by
  unfold scanAtom
  repeat' split
  all_goals first
    | exact scanNumber_not_dict
    | simp

theorem scanOnce_dict {fe : FloatEnv} {n : Nat} {s r : PyStr} {d : List (PyStr × Val)}
    (h : scanOnce fe n s = some (.dict d, r)) : s.head? = some 123 := by
  cases n with
  | zero => simp [scanOnce] at h
  | succ n =>
    cases s with
    | nil => simp [scanOnce] at h
    | cons c s =>
      by_cases h3 : c = 123
      · rw [h3]; rfl
      · exfalso
        by_cases h1 : c = 34
        · subst h1
          simp [scanOnce] at h
        · by_cases h2 : c = 91
          · subst h2
            simp only [scanOnce, h1, h3, if_false, if_true] at h
            split at h
            · cases h
            · rw [Option.map_eq_some_iff] at h
              obtain ⟨p, -, hp⟩ := h
              cases hp
          · rw [atom_not_struct fe n c s h1 h3 h2] at h
            exact scanAtom_not_dict h

theorem jsonParse_dict {fe : FloatEnv} {s : PyStr} {d : List (PyStr × Val)}
    (h : jsonParse fe s = .ok (.dict d)) : 123 ∈ s := by
  unfold jsonParse at h
  split at h
  · cases h
  · split at h
    · cases h
    · rename_i v r hs
      split at h
      · cases h
        have := scanOnce_dict hs
        have hm : 123 ∈ skipWs s := List.mem_of_mem_head? (by rw [this]; rfl)
        unfold skipWs at hm
        exact (List.dropWhile_sublist _).subset hm
      · cases h

/-- Bytes that are read as a JSON object are valid UTF-8. -/
theorem jsonLoads_dict {fe : FloatEnv} {b : Bytes} {d : List (PyStr × Val)}
    (h : jsonLoads fe b = .ok (.dict d)) :
    ∃ s, utf8Encode s = .ok b ∧ jsonParse fe s = .ok (.dict d) := by
  unfold jsonLoads toStringB at h
  split at h
  · rename_i s hs
    exact ⟨s, utf8Encode_decode hs, h⟩
  · exfalso
    have := jsonParse_dict h
    unfold asciiStr at this
    rw [List.mem_map] at this
    obtain ⟨c, hc, e⟩ := this
    have := b64urlEncode_alphabet b c hc
    unfold IsB64uChar at this
    omega

end Psion
