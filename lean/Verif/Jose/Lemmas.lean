import Verif.Jose.Jwt
import Verif.Py.WebtoolsLemmas

/-! Helper lemmas about keys, signatures and tokens. -/

namespace Psion

theorem bind_ok_iff {ε α β : Type} {x : Except ε α} {f : α → Except ε β} {b : β} :
    (x >>= f) = .ok b ↔ ∃ a, x = .ok a ∧ f a = .ok b := by
  cases x with
  | error e => simp [bind, Except.bind]
  | ok a => simp [bind, Except.bind]

theorem bind_error_iff {ε α β : Type} {x : Except ε α} {f : α → Except ε β} {e : ε} :
    (x >>= f) = .error e ↔ x = .error e ∨ ∃ a, x = .ok a ∧ f a = .error e := by
  cases x with
  | error e' => simp [bind, Except.bind]
  | ok a => simp [bind, Except.bind]

theorem pure_ok_iff {ε α : Type} {a b : α} : (pure a : Except ε α) = .ok b ↔ a = b := by
  simp [pure, Except.pure]

theorem map_ok_iff {ε α β : Type} {x : Except ε α} {f : α → β} {b : β} :
    (f <$> x) = .ok b ↔ ∃ a, x = .ok a ∧ f a = b := by
  cases x with
  | error e => simp [Functor.map, Except.map]
  | ok a => simp [Functor.map, Except.map]

theorem error_bind {ε α β : Type} (e : ε) (f : α → Except ε β) :
    ((Except.error e : Except ε α) >>= f) = .error e := rfl

theorem error_map {ε α β : Type} (e : ε) (f : α → β) :
    (f <$> (Except.error e : Except ε α)) = .error e := rfl

theorem ok_bind {ε α β : Type} (a : α) (f : α → Except ε β) :
    ((Except.ok a : Except ε α) >>= f) = f a := rfl

theorem throw_ne_ok {ε α : Type} {e : ε} {b : α} : (throw e : Except ε α) ≠ .ok b := by
  simp [throw, throwThe, MonadExceptOf.throw]

theorem throw_eq {ε α : Type} (e : ε) : (throw e : Except ε α) = .error e := rfl

/-! ### values -/

theorem pyEq_str {v : Val} {s : PyStr} : v.pyEq (.str s) = true ↔ v = .str s := by
  cases v <;> simp [Val.pyEq]

theorem pyEq_str_left {v : Val} {s : PyStr} : (Val.str s).pyEq v = true ↔ v = .str s := by
  cases v <;> simp [Val.pyEq, eq_comm]

theorem truthy_not_none {v : Val} (h : v.truthy = true) : v.isNone = false := by
  cases v <;> simp_all [Val.truthy, Val.isNone]

theorem isNone_iff {v : Val} : v.isNone = true ↔ v = .none := by
  cases v <;> simp [Val.isNone]

theorem dget_of_get {d : Dict PyStr Val} {k : PyStr} {v : Val} (h : Dict.get d k = some v) :
    dget d k = v := by simp [dget, h]

theorem get_of_dget {d : Dict PyStr Val} {k : PyStr} {v : Val} (h : dget d k = v)
    (hv : v ≠ .none) : Dict.get d k = some v := by
  unfold dget at h
  cases hg : Dict.get d k with
  | none => rw [hg] at h; exact absurd h.symm hv
  | some w => rw [hg] at h; simpa using h

/-! ### `FullDict` of values -/

theorem get_fullDict_some {d : Dict PyStr Val} {k : PyStr} {v : Val} (h : Dict.get d k = some v)
    (hv : v ≠ .none) : Dict.get (fullDict d) k = some v := by
  induction d with
  | nil => simp at h
  | cons p d ih =>
    obtain ⟨k', v'⟩ := p
    rw [Dict.get_cons] at h
    split at h
    · cases h
      have : v.isNone = false := by
        cases hn : v.isNone with
        | false => rfl
        | true => exact absurd (isNone_iff.mp hn) hv
      simp [fullDict, Dict.get_cons, *]
    · rename_i hne
      have := ih h
      unfold fullDict at this ⊢
      rw [List.filter_cons]
      split
      · rw [Dict.get_cons, if_neg hne]; exact this
      · exact this

theorem get_fullDict_none {d : Dict PyStr Val} {k : PyStr} (h : Dict.get d k = none) :
    Dict.get (fullDict d) k = none := by
  rw [Dict.get_eq_none_iff] at h ⊢
  intro hk
  apply h
  unfold Dict.keys fullDict at *
  rw [List.mem_map] at hk ⊢
  obtain ⟨p, hp, rfl⟩ := hk
  exact ⟨p, (List.mem_filter.mp hp).1, rfl⟩

theorem fullDict_idem (d : Dict PyStr Val) : fullDict (fullDict d) = fullDict d := by
  unfold fullDict; rw [List.filter_filter]; congr 1; funext x; simp

theorem dget_fullDict {d : Dict PyStr Val} (hd : Dict.Ok d) (k : PyStr) :
    dget (fullDict d) k = dget d k := by
  unfold dget fullDict
  rw [Dict.get_filter hd]
  cases Dict.get d k with
  | none => rfl
  | some v =>
    by_cases hv : v.isNone = true
    · simp [Option.filter, isNone_iff.mp hv, Val.isNone]
    · simp [Option.filter, hv]

theorem truthy_dget_fullDict {d : Dict PyStr Val} {k : PyStr} (h : (dget d k).truthy = true) :
    dget (fullDict d) k = dget d k := by
  have hn : dget d k ≠ .none := by
    intro h0; rw [h0] at h; simp [Val.truthy] at h
  exact dget_of_get (get_fullDict_some (get_of_dget rfl hn) hn)

/-! ### algorithm names -/

theorem JwsAlg.ofName_some {s : PyStr} {a : JwsAlg} (h : JwsAlg.ofName s = some a) : a.name = s := by
  have := List.find?_some h
  simpa using this

theorem JwsAlg.ofName_name (a : JwsAlg) : JwsAlg.ofName a.name = some a := by
  cases a with
  | none => decide
  | hs h => cases h <;> decide
  | rs h => cases h <;> decide
  | es h => cases h <;> decide
  | ps h => cases h <;> decide

theorem JwsAlg.name_inj {a b : JwsAlg} (h : a.name = b.name) : a = b := by
  have h1 := JwsAlg.ofName_name a
  rw [h, JwsAlg.ofName_name b] at h1
  exact (Option.some.inj h1).symm

theorem JwsAlg.name_ne_nil (a : JwsAlg) : a.name ≠ [] := by
  cases a with
  | none => decide
  | hs h => cases h <;> decide
  | rs h => cases h <;> decide
  | es h => cases h <;> decide
  | ps h => cases h <;> decide

theorem Kty.ofName_some {s : PyStr} {k : Kty} (h : Kty.ofName s = some k) : s = k.name := by
  unfold Kty.ofName at h
  repeat' split at h
  all_goals first | (cases h; assumption) | cases h

theorem Kty.ofName_name (k : Kty) : Kty.ofName k.name = some k := by cases k <;> decide

theorem Curve.ofName_some {s : PyStr} {c : Curve} (h : Curve.ofName s = some c) : s = c.name := by
  unfold Curve.ofName at h
  repeat' split at h
  all_goals first | (cases h; assumption) | cases h

theorem Curve.ofName_name (c : Curve) : Curve.ofName c.name = some c := by cases c <;> decide

/-! ### headers -/

theorem validateAlg_ok {h : Dict PyStr Val} {a : JwsAlg} :
    validateAlg h = .ok a ↔ Dict.get h (py! "alg") = some (.str a.name) := by
  unfold validateAlg
  constructor
  · intro hh
    split at hh
    · cases hh
    · cases hh
    · cases hh
    · rename_i s hs
      split at hh
      · cases hh
      · rename_i a' ha
        cases hh
        rw [hs, JwsAlg.ofName_some ha]
    · cases hh
  · intro hh
    rw [hh]
    simp only [JwsAlg.ofName_name]

theorem validateText_ok {h : Dict PyStr Val} {n : PyStr} :
    validateText h n = .ok () ↔
      Dict.get h n = none ∨ ∃ c s, Dict.get h n = some (.str (c :: s)) := by
  unfold validateText
  constructor
  · intro hh
    split at hh
    · left; assumption
    · right; exact ⟨_, _, by assumption⟩
    · cases hh
  · rintro (hh | ⟨c, s, hh⟩) <;> rw [hh]

theorem validateCrit_ok {h : Dict PyStr Val} :
    validateCrit h = .ok () ↔
      Dict.get h (py! "crit") = none ∨
        ∃ l, Dict.get h (py! "crit") = some (.list l) ∧ l ≠ [] ∧
          ∀ v ∈ l, ∃ c s, v = .str (c :: s) ∧ (dget h (c :: s)).truthy = true := by
  unfold validateCrit
  constructor
  · intro hh
    split at hh
    · left; assumption
    · rename_i l hl
      right
      split at hh
      · cases hh
      split at hh
      · cases hh
      split at hh
      · cases hh
      rename_i h1 h2 h3
      refine ⟨l, hl, h1, ?_⟩
      intro v hv
      simp only [List.any_eq_true, not_exists, not_and, Bool.not_eq_true] at h2 h3
      have h2 := h2 v hv
      have h3 := h3 v hv
      cases v with
      | str s =>
        cases s with
        | nil => simp [Val.truthy] at h2
        | cons c s => exact ⟨c, s, rfl, by simpa using h3⟩
      | _ => simp [Val.isStr] at h2
    · cases hh
  · rintro (hh | ⟨l, hl, hne, hall⟩)
    · rw [hh]
    · rw [hl]
      simp only
      rw [if_neg hne, if_neg, if_neg]
      · simp only [List.any_eq_true, not_exists, not_and, Bool.not_eq_true]
        intro v hv
        obtain ⟨c, s, rfl, ht⟩ := hall v hv
        simp [ht]
      · simp only [List.any_eq_true, not_exists, not_and, Bool.not_eq_true]
        intro v hv
        obtain ⟨c, s, rfl, ht⟩ := hall v hv
        simp [Val.truthy, Val.isStr]

theorem headerInit_ok {v : Val} {j : JwsHeader} :
    JwsHeader.init v = .ok j ↔
      ∃ h, v = .dict h ∧ j.data = fullDict h ∧
        Dict.get h (py! "alg") = some (.str j.alg.name) ∧
        validateCrit h = .ok () ∧ validateText h (py! "cty") = .ok () ∧
        validateText h (py! "kid") = .ok () ∧ validateText h (py! "typ") = .ok () := by
  constructor
  · intro hh
    unfold JwsHeader.init at hh
    split at hh
    · rename_i h
      split at hh
      · cases hh
      · simp only [bind_ok_iff, pure_ok_iff] at hh
        obtain ⟨a, ha, ⟨⟩, h1, ⟨⟩, h2, ⟨⟩, h3, ⟨⟩, h4, rfl⟩ := hh
        exact ⟨h, rfl, rfl, validateAlg_ok.mp ha, h1, h2, h3, h4⟩
    · cases hh
  · rintro ⟨h, rfl, hd, ha, h1, h2, h3, h4⟩
    unfold JwsHeader.init
    simp only
    rw [if_neg (by rintro rfl; simp at ha)]
    simp only [bind_ok_iff, pure_ok_iff]
    refine ⟨j.alg, validateAlg_ok.mpr ha, (), h1, (), h2, (), h3, (), h4, ?_⟩
    obtain ⟨d, a⟩ := j
    simp only at hd
    rw [hd]

theorem header_alg {v : Val} {j : JwsHeader} (h : JwsHeader.init v = .ok j) :
    Dict.get j.data (py! "alg") = some (.str j.alg.name) := by
  obtain ⟨h, rfl, hd, ha, -⟩ := headerInit_ok.mp h
  rw [hd]
  exact get_fullDict_some ha (by simp)

/-- Validating an already validated header again changes nothing. -/
theorem headerInit_idem {v : Val} {j : JwsHeader} (h' : JwsHeader.init v = .ok j) :
    JwsHeader.init (.dict j.data) = .ok j := by
  obtain ⟨h, rfl, hd, ha, hc, h2, h3, h4⟩ := headerInit_ok.mp h'
  have text : ∀ n, validateText h n = .ok () → validateText j.data n = .ok () := by
    intro n hn
    rw [validateText_ok] at hn ⊢
    rw [hd]
    rcases hn with hn | ⟨c, s, hn⟩
    · exact Or.inl (get_fullDict_none hn)
    · exact Or.inr ⟨c, s, get_fullDict_some hn (by simp)⟩
  refine headerInit_ok.mpr ⟨j.data, rfl, by rw [hd, fullDict_idem], ?_, ?_, text _ h2, text _ h3,
    text _ h4⟩
  · rw [hd]; exact get_fullDict_some ha (by simp)
  · rw [validateCrit_ok] at hc ⊢
    rw [hd]
    rcases hc with hc | ⟨l, hl, hne, hall⟩
    · exact Or.inl (get_fullDict_none hc)
    · refine Or.inr ⟨l, get_fullDict_some hl (by simp), hne, ?_⟩
      intro v hv
      obtain ⟨c, s, rfl, ht⟩ := hall v hv
      exact ⟨c, s, rfl, by rw [truthy_dget_fullDict ht]; exact ht⟩

/-! ### `deserialize` -/

theorem deserialize_ok {cr : Crypto} {token : Bytes} {key : Jwk} {alg : Option PyStr} {val : Bool}
    {j : Jws} :
    Jws.deserialize cr token key alg val = .ok j ↔
      ∃ hb pb sb raw v, splitOn 46 token = [hb, pb, sb] ∧ b64urlDecode hb = .ok raw ∧
        jsonLoads cr.fe raw = .ok v ∧ JwsHeader.init v = .ok j.header ∧
        algMatches alg j.header = true ∧
        (val = true → validateKey key j.header = .ok () ∧
          j.header.alg.verify cr sb (hb ++ 46 :: pb) key = .ok ()) ∧
        b64urlDecode pb = .ok j.payload := by
  unfold Jws.deserialize
  constructor
  · intro h
    split at h
    · rename_i hb pb sb hsplit
      simp only [bind_ok_iff] at h
      obtain ⟨raw, h1, v, h2, hd, h3, h4⟩ := h
      split at h4
      · simp [throw_eq, error_bind] at h4
      · rename_i halg
        simp only [Bool.not_eq_true, Bool.not_eq_false'] at halg
        cases val with
        | true =>
          simp only [if_true, bind_ok_iff, pure_ok_iff] at h4
          obtain ⟨⟨⟩, h5, ⟨⟩, h6, p, h7, rfl⟩ := h4
          exact ⟨hb, pb, sb, raw, v, hsplit, h1, h2, h3, halg, fun _ => ⟨h5, h6⟩, h7⟩
        | false =>
          simp only [Bool.false_eq_true, if_false, bind_ok_iff, pure_ok_iff] at h4
          obtain ⟨p, h7, rfl⟩ := h4
          exact ⟨hb, pb, sb, raw, v, hsplit, h1, h2, h3, halg, fun h => by simp at h, h7⟩
    · cases h
  · rintro ⟨hb, pb, sb, raw, v, hsplit, h1, h2, h3, halg, hv, h7⟩
    rw [hsplit]
    simp only [bind_ok_iff]
    refine ⟨raw, h1, v, h2, j.header, h3, ?_⟩
    rw [if_neg (by simp [halg])]
    cases val with
    | true =>
      obtain ⟨h5, h6⟩ := hv rfl
      simp only [if_true, bind_ok_iff, pure_ok_iff]
      exact ⟨(), h5, (), h6, j.payload, h7, rfl⟩
    | false =>
      simp only [Bool.false_eq_true, if_false, bind_ok_iff, pure_ok_iff]
      exact ⟨j.payload, h7, rfl⟩

theorem serialize_ok {cr : Crypto} {j : Jws} {key : Jwk} {seed : Nat} {t : Bytes} :
    j.serialize cr key seed = .ok t ↔
      ∃ m s, validateKey key j.header = .ok () ∧ j.message cr = .ok m ∧
        j.header.alg.sign cr m key seed = .ok s ∧ t = m ++ 46 :: s := by
  unfold Jws.serialize
  constructor
  · intro h
    split at h
    · cases h
    split at h
    · cases h
    split at h
    · cases h
    · cases h
      exact ⟨_, _, by assumption, by assumption, by assumption, rfl⟩
  · rintro ⟨m, s, h1, h2, h3, rfl⟩
    simp only [h1, h2, h3]

/-- Every segment produced by the encoder is free of dots. -/
theorem no_dot (b : Bytes) : (46 : Byte) ∉ b64urlEncode b := by
  intro h
  have := b64urlEncode_alphabet b 46 h
  unfold IsB64uChar at this
  simp at this

theorem split_token (a b c : Bytes) (ha : (46 : Byte) ∉ a) (hb : (46 : Byte) ∉ b)
    (hc : (46 : Byte) ∉ c) :
    splitOn 46 (a ++ 46 :: b ++ 46 :: c) = [a, b, c] := by
  rw [List.append_assoc, List.cons_append, splitOn_append ha, splitOn_append hb,
    splitOn_not_mem hc]

theorem split_token_inv {t a b c : Bytes} (h : splitOn 46 t = [a, b, c]) :
    t = a ++ 46 :: b ++ 46 :: c ∧ (46 : Byte) ∉ a ∧ (46 : Byte) ∉ b ∧ (46 : Byte) ∉ c := by
  have h1 := join_splitOn 46 t
  have h2 := splitOn_pieces 46 t
  rw [h] at h1 h2
  refine ⟨?_, h2 a (by simp), h2 b (by simp), h2 c (by simp)⟩
  rw [← h1]
  simp [joinWith]

theorem splitOn_length (sep : Byte) (s : Bytes) :
    (splitOn sep s).length = s.count sep + 1 := by
  induction s with
  | nil => simp [splitOn]
  | cons c s ih =>
    have hne := splitOn_ne_nil sep s
    by_cases h : c = sep
    · subst h
      have := splitOn_append (sep := c) (p := []) (s := s) (by simp)
      simp only [List.nil_append] at this
      rw [this]; simp [ih]
    · have hc : (c :: s).count sep = s.count sep := List.count_cons_of_ne h
      rw [hc, ← ih]
      simp only [splitOn]
      rw [if_neg h]
      cases hs : splitOn sep s with
      | nil => exact absurd hs hne
      | cons p ps => rfl

theorem b64urlDecode_error {s : Bytes} {e : Exc} (h : b64urlDecode s = .error e) : e = .binascii := by
  unfold b64urlDecode a2b at h
  exact a2bLoop_error h

theorem jsonLoads_error {fe : FloatEnv} {b : Bytes} {e : Exc} (h : jsonLoads fe b = .error e) :
    e = .jsonDecode := by
  unfold jsonLoads jsonParse at h
  split at h
  · cases h; rfl
  · split at h
    · cases h; rfl
    · split at h
      · cases h
      · cases h; rfl

theorem validateKey_error {key : Jwk} {h : JwsHeader} {e : Exc} (he : validateKey key h = .error e) :
    e.isJose = true ∨ (e = .typeErr ∧ (dget key.data (py! "key_ops")).truthy = true ∧
      ∃ e, iterVal (dget key.data (py! "key_ops")) = .error e) := by
  unfold validateKey at he
  simp only at he
  repeat' split at he
  all_goals first | (cases he; done) | (cases he; exact Or.inl rfl) | skip
  rename_i hops _ _ hit
  cases he
  right
  refine ⟨?_, hops, _, hit⟩
  revert hit
  cases dget key.data (py! "key_ops") <;> simp [iterVal] <;> (intro h; exact h.symm)

theorem headerInit_error {v : Val} {e : Exc} (h : JwsHeader.init v = .error e) :
    e.isJose = true ∨ (e = .typeErr ∧ ∃ d x, v = .dict d ∧ Dict.get d (py! "alg") = some x ∧
      x.hashable = false) := by
  unfold JwsHeader.init at h
  split at h
  · rename_i d
    split at h
    · cases h; exact Or.inl rfl
    · rw [bind_error_iff] at h
      rcases h with h | ⟨a, -, h⟩
      · unfold validateAlg at h
        split at h
        · cases h; exact Or.inl rfl
        · rename_i hx; cases h; exact Or.inr ⟨rfl, d, _, rfl, hx, rfl⟩
        · rename_i hx; cases h; exact Or.inr ⟨rfl, d, _, rfl, hx, rfl⟩
        · split at h
          · cases h; exact Or.inl rfl
          · cases h
        · cases h; exact Or.inl rfl
      · have text : ∀ n e, validateText d n = .error e → e.isJose = true := by
          intro n e h
          unfold validateText at h
          repeat' split at h
          all_goals cases h
          rfl
        simp only [bind_error_iff] at h
        rcases h with h | ⟨⟨⟩, -, h | ⟨⟨⟩, -, h | ⟨⟨⟩, -, h | ⟨⟨⟩, -, h⟩⟩⟩⟩
        · unfold validateCrit at h
          repeat' split at h
          all_goals first | (cases h; exact Or.inl rfl) | cases h
        · exact Or.inl (text _ _ h)
        · exact Or.inl (text _ _ h)
        · exact Or.inl (text _ _ h)
        · cases h
  · cases h; exact Or.inl rfl

end Psion
