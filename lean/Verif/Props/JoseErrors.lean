import Verif.Jose.ErrorLemmas
import Verif.Props.JwtExact

/-!
# Properties C115 – C118: a refusal says what is wrong
-/

namespace Psion.Props

open Psion Psion.Spec

/-! ## C115: headers -/

/-- The algorithm of a header is looked up. -/
theorem validateAlg_error {d : Dict PyStr Val} {a : Val} {e : Exc} (ha : Dict.get d (py! "alg") = some a) (h : validateAlg d = .error e) :
    (Unhashable a ∧ e = .typeErr) ∨ (¬ Unhashable a ∧ (∀ s ∈ supportedAlgs, a ≠ .str s) ∧ e = .jose .unsupportedAlgorithm) := by
  unfold validateAlg at h
  rw [ha] at h
  cases a with
  | list l => cases h; exact Or.inl ⟨Or.inl ⟨l, rfl⟩, rfl⟩
  | dict m => cases h; exact Or.inl ⟨Or.inr ⟨m, rfl⟩, rfl⟩
  | str s =>
    simp only at h
    split at h
    · rename_i hn
      cases h
      refine Or.inr ⟨(by rintro (⟨_, h⟩ | ⟨_, h⟩) <;> cases h), ?_, rfl⟩
      intro t ht heq
      cases heq
      obtain ⟨b, rfl⟩ := (mem_supportedAlgs _).mp ht
      rw [JwsAlg.ofName_name] at hn
      cases hn
    · cases h
  | _ => cases h; exact Or.inr ⟨(by rintro (⟨_, h⟩ | ⟨_, h⟩) <;> cases h), (by intro _ _ h; cases h), rfl⟩

/-- C115: exactly which error every header is refused with. -/
theorem C115_header_partial (v : Val) (e : Exc) : JwsHeader.init v = .error e ↔ HeaderRefused v e := by
  constructor
  · intro h
    have h' := h
    unfold JwsHeader.init at h
    split at h
    · rename_i d
      split at h
      · rename_i hd
        cases h
        exact .noObject _ (by rintro d' ⟨⟩; exact hd)
      · cases hg : Dict.get d (py! "alg") with
        | none =>
          rw [bind_error_iff] at h
          rcases h with h | ⟨a, h, -⟩
          · unfold validateAlg at h
            rw [hg] at h
            cases h
            exact .noAlg d hg
          · unfold validateAlg at h
            rw [hg] at h
            cases h
        | some a =>
          rw [bind_error_iff] at h
          rcases h with h | ⟨al, ha, h⟩
          · rcases validateAlg_error hg h with ⟨hu, rfl⟩ | ⟨hu, hs, rfl⟩
            · exact .unhashable d a hg hu
            · exact .unsupported d a hg hu hs
          · have hal := validateAlg_ok.mp ha
            rw [hg] at hal
            cases hal
            have he : e = .jose .invalidJWSHeader := by
              simp only [bind_error_iff] at h
              rcases h with h | ⟨-, -, h | ⟨-, -, h | ⟨-, -, h | ⟨-, -, h⟩⟩⟩⟩
              · exact validateCrit_error h
              · exact validateText_error h
              · exact validateText_error h
              · exact validateText_error h
              · cases h
            rw [he]
            refine .member d _ hg ((mem_supportedAlgs _).mpr ⟨_, rfl⟩) ?_
            intro hok
            obtain ⟨j, hj⟩ := (C26_header_validation (.dict d)).mpr ⟨d, rfl, hok⟩
            rw [hj] at h'
            cases h'
    · rename_i hnd
      cases h
      exact .noObject _ (fun d hd => absurd hd (hnd d))
  · intro h
    have noerr : ∀ d : Dict PyStr Val, Dict.get d (py! "alg") ≠ none → d ≠ [] := by
      rintro d hd rfl
      exact hd rfl
    cases h with
    | noObject _ h =>
      unfold JwsHeader.init
      split
      · rename_i d
        rw [if_pos (h d rfl)]
      · rfl
    | noAlg d h =>
      unfold JwsHeader.init
      simp only
      split
      · rfl
      · unfold validateAlg
        rw [h]
        rfl
    | unsupported d a h hu hs =>
      unfold JwsHeader.init
      simp only
      rw [if_neg (noerr d (by rw [h]; simp))]
      have : validateAlg d = .error (.jose .unsupportedAlgorithm) := by
        cases hv : validateAlg d with
        | error x =>
          rcases validateAlg_error h hv with ⟨hu', -⟩ | ⟨-, -, rfl⟩
          · exact absurd hu' hu
          · rfl
        | ok al =>
          have := validateAlg_ok.mp hv
          rw [h] at this
          cases this
          exact absurd rfl (hs _ ((mem_supportedAlgs _).mpr ⟨_, rfl⟩))
      rw [this]
      rfl
    | unhashable d a h hu =>
      unfold JwsHeader.init
      simp only
      rw [if_neg (noerr d (by rw [h]; simp))]
      unfold validateAlg
      rw [h]
      rcases hu with ⟨l, rfl⟩ | ⟨m, rfl⟩ <;> rfl
    | member d s h hs hn =>
      cases hx : JwsHeader.init (.dict d) with
      | ok j =>
        obtain ⟨d', hd', hok⟩ := (C26_header_validation (.dict d)).mp ⟨j, hx⟩
        cases hd'
        exact absurd hok hn
      | error e =>
        unfold JwsHeader.init at hx
        simp only at hx
        rw [if_neg (noerr d (by rw [h]; simp))] at hx
        simp only [bind_error_iff] at hx
        rcases hx with hx | ⟨_, _, hx | ⟨_, _, hx | ⟨_, _, hx | ⟨_, _, hx | ⟨_, _, hx⟩⟩⟩⟩⟩
        · rcases validateAlg_error h hx with ⟨hu, -⟩ | ⟨-, h2, -⟩
          · rcases hu with ⟨_, hu⟩ | ⟨_, hu⟩ <;> cases hu
          · exact absurd rfl (h2 s hs)
        · rw [validateCrit_error hx]
        · rw [validateText_error hx]
        · rw [validateText_error hx]
        · rw [validateText_error hx]
        · cases hx

/-- C115 is violated: an algorithm that is a list is not reported as an error of the library. -/
theorem C115_refuted (l : List Val) : JwsHeader.init (.dict [(py! "alg", .list l)]) = .error .typeErr :=
  (C115_header_partial _ _).mpr (.unhashable _ _ rfl (Or.inl ⟨l, rfl⟩))

example : JwsHeader.init (.dict [(py! "alg", .str (py! "HS1"))]) = .error (.jose .unsupportedAlgorithm) :=
  (C115_header_partial _ _).mpr (.unsupported _ _ rfl (by rintro (⟨_, h⟩ | ⟨_, h⟩) <;> cases h) (by
    intro s hs h
    cases h
    revert hs
    decide))

example : JwsHeader.init (.dict [(py! "alg", .str (py! "HS256")), (py! "crit", .list [])]) = .error (.jose .invalidJWSHeader) :=
  (C115_header_partial _ _).mpr (.member _ _ rfl (by decide) (by
    intro h
    obtain ⟨l, hl, hne, -⟩ := h.crit _ rfl
    cases hl
    exact hne rfl))

/-! ## C116: claims -/

/-- The check of the options. -/
theorem optionsCheck_error {c : Dict PyStr Val} {opts : Val} {e : Exc} (h : (do
    match opts with
    | .dict o => validateClaims c o
    | _ => pure ()
    return fullDict c : Res (Dict PyStr Val)) = .error e) : e = .jose .invalidJWTClaim := by
  split at h
  · rw [bind_error_iff] at h
    rcases h with h | ⟨_, _, h⟩
    · exact validateClaims_error h
    · cases h
  · cases h

/-- C116: claims are refused only with these three errors. -/
theorem C116_errors (now : Int) (v opts : Val) (e : Exc) (h : claimsInit now v opts = .error e) :
    e ∈ [Exc.jose .expiredToken, .jose .notYetValidToken, .jose .invalidJWTClaim] := by
  unfold claimsInit at h
  split at h
  · split at h
    · cases h; simp
    · rename_i c _
      rw [bind_error_iff] at h
      rcases h with h | ⟨-, -, h⟩
      · unfold validateDefaultClaims at h
        simp only [bind_error_iff] at h
        rcases h with h | ⟨-, -, h | ⟨-, -, h | ⟨-, -, h | ⟨-, -, h | ⟨-, -, h | ⟨-, -, h⟩⟩⟩⟩⟩⟩
        · rw [checkAud_error h]; simp
        · rcases checkExp_error h with rfl | ⟨rfl, -⟩ <;> simp
        · rw [checkIat_error h]; simp
        · rw [checkText_error h]; simp
        · rw [checkText_error h]; simp
        · rcases checkNbf_error h with rfl | ⟨rfl, -⟩ <;> simp
        · rw [checkText_error h]; simp
      · rw [optionsCheck_error h]; simp
  · cases h; simp

/-- C116: exactly the claims that are over are refused as expired, unless their audience has a wrong type. The options do not matter. -/
theorem C116_expired (now : Int) (v opts : Val) :
    claimsInit now v opts = .error (.jose .expiredToken) ↔ ∃ c, v = .dict c ∧ AudOk c ∧ Expired now c := by
  constructor
  · intro h
    unfold claimsInit at h
    split at h
    · rename_i c
      split at h
      · cases h
      · refine ⟨c, rfl, ?_⟩
        rw [bind_error_iff] at h
        rcases h with h | ⟨-, -, h⟩
        · unfold validateDefaultClaims at h
          rw [bind_error_iff] at h
          rcases h with h | ⟨⟨⟩, h1, h⟩
          · cases checkAud_error h
          rw [bind_error_iff] at h
          rcases h with h | ⟨⟨⟩, h2, h⟩
          · rcases checkExp_error h with h | ⟨-, h⟩
            · cases h
            · exact ⟨checkAud_ok.mp h1, h⟩
          simp only [bind_error_iff] at h
          rcases h with h | ⟨-, -, h | ⟨-, -, h | ⟨-, -, h | ⟨-, -, h⟩⟩⟩⟩
          · cases checkIat_error h
          · cases checkText_error h
          · cases checkText_error h
          · rcases checkNbf_error h with h | ⟨h, -⟩ <;> cases h
          · cases checkText_error h
        · cases optionsCheck_error h
    · cases h
  · rintro ⟨c, rfl, ha, i, hi, h0, hle⟩
    unfold claimsInit
    simp only
    rw [if_neg (by rintro rfl; cases hi)]
    unfold validateDefaultClaims
    rw [checkAud_ok.mpr ha, hi]
    have : checkExp now (.int i) = .error (.jose .expiredToken) := by
      unfold checkExp
      rw [if_pos (by simp [Val.truthy, h0])]
      simp only
      rw [if_pos hle]
    rw [this]
    rfl

/-- C116: exactly the claims that are not valid yet are refused as such, unless another claim (except `sub`) is not acceptable. -/
theorem C116_early (now : Int) (v opts : Val) :
    claimsInit now v opts = .error (.jose .notYetValidToken) ↔ ∃ c, v = .dict c ∧ AudOk c ∧ TimeOk c (py! "exp") (now < ·) ∧
      TimeOk c (py! "iat") (· ≤ now) ∧ TextOk c (py! "iss") ∧ TextOk c (py! "jti") ∧ Early now c := by
  constructor
  · intro h
    unfold claimsInit at h
    split at h
    · rename_i c
      split at h
      · cases h
      · refine ⟨c, rfl, ?_⟩
        rw [bind_error_iff] at h
        rcases h with h | ⟨-, -, h⟩
        · unfold validateDefaultClaims at h
          rw [bind_error_iff] at h
          rcases h with h | ⟨⟨⟩, h1, h⟩
          · cases checkAud_error h
          rw [bind_error_iff] at h
          rcases h with h | ⟨⟨⟩, h2, h⟩
          · rcases checkExp_error h with h | ⟨h, -⟩ <;> cases h
          rw [bind_error_iff] at h
          rcases h with h | ⟨⟨⟩, h3, h⟩
          · cases checkIat_error h
          rw [bind_error_iff] at h
          rcases h with h | ⟨⟨⟩, h4, h⟩
          · cases checkText_error h
          rw [bind_error_iff] at h
          rcases h with h | ⟨⟨⟩, h5, h⟩
          · cases checkText_error h
          rw [bind_error_iff] at h
          rcases h with h | ⟨⟨⟩, h6, h⟩
          · rcases checkNbf_error h with h | ⟨-, h⟩
            · cases h
            · exact ⟨checkAud_ok.mp h1, timeOk_exp.mp h2, timeOk_iat.mp h3, checkText_ok.mp h4, checkText_ok.mp h5, h⟩
          · cases checkText_error h
        · cases optionsCheck_error h
    · cases h
  · rintro ⟨c, rfl, h1, h2, h3, h4, h5, i, hi, h0, hlt⟩
    unfold claimsInit
    simp only
    rw [if_neg (by rintro rfl; cases hi)]
    unfold validateDefaultClaims
    have : checkNbf now (.int i) = .error (.jose .notYetValidToken) := by
      unfold checkNbf
      rw [if_pos (by simp [Val.truthy, h0])]
      simp only
      rw [if_pos hlt]
    rw [checkAud_ok.mpr h1, timeOk_exp.mpr h2, timeOk_iat.mpr h3, checkText_ok.mpr h4, checkText_ok.mpr h5, hi, this]
    rfl

/-- C116 for tokens: a token with a good signature whose claims are over is refused as expired, whatever the options are. -/
theorem C116_decode (cr : Crypto) (n1 n2 : Int) (tok : Bytes) (key : Jwk) (alg : Option PyStr) (validate : Bool) (opts : Val) (j : Jws)
    (c : Dict PyStr Val) (hj : Jws.deserialize cr tok key alg validate = .ok j) (hc : jsonLoads cr.fe j.payload = .ok (.dict c))
    (ha : AudOk c) (he : Expired n1 c) : Jwt.decode cr n1 n2 tok key alg validate opts = .error (.jose .expiredToken) := by
  unfold Jwt.decode
  rw [hj]
  simp only [ok_bind]
  rw [hc]
  simp only [ok_bind]
  rw [(C116_expired n1 (.dict c) _).mpr ⟨c, rfl, ha, he⟩]
  rfl

example : claimsInit 100 (.dict [(py! "exp", .int 99)]) (.dict [(py! "sub", .dict [(py! "essential", .bool true)])]) =
    .error (.jose .expiredToken) :=
  (C116_expired _ _ _).mpr ⟨_, rfl, Or.inl rfl, 99, rfl, by decide, by decide⟩

example : claimsInit 100 (.dict [(py! "exp", .int 200), (py! "nbf", .int 150)]) .none = .error (.jose .notYetValidToken) :=
  (C116_early _ _ _).mpr ⟨_, rfl, Or.inl rfl, Or.inr ⟨200, rfl, by decide⟩, Or.inl rfl, Or.inl rfl, Or.inl rfl, 150, rfl, by decide, by decide⟩

/-! ## C117: tokens -/

/-- What `algMatches` tests. -/
theorem expected_iff {w : Val} {h : JwsHeader} (hh : JwsHeader.init w = .ok h) (alg : Option PyStr) :
    algMatches alg h = true ↔ ExpectedAlg alg h.alg.name := by
  have hd := dget_of_get (header_alg hh)
  unfold ExpectedAlg
  match alg with
  | none => simp [algMatches]
  | some [] => simp [algMatches]
  | some (c :: a) =>
    simp only [algMatches, hd, reduceCtorEq, Option.some.injEq, false_or]
    rw [pyEq_str, Val.str.injEq]
    exact ⟨Eq.symm, Eq.symm⟩

/-- The parts of a token whose header is valid. -/
theorem heads_iff {cr : Crypto} {hb : Bytes} {h : Dict PyStr Val} {a : PyStr} : Heads cr hb h a ↔
    ∃ raw v j, b64urlDecode hb = .ok raw ∧ jsonLoads cr.fe raw = .ok v ∧ JwsHeader.init v = .ok j ∧ j.data = h ∧ j.alg.name = a := by
  constructor
  · rintro ⟨raw, hd, h1, h2, h3, rfl, h5⟩
    obtain ⟨j, hj⟩ := (C26_header_validation (.dict hd)).mpr ⟨hd, rfl, h3⟩
    obtain ⟨hd', e, hfull, hget, -⟩ := headerInit_ok.mp hj
    cases e
    rw [h5] at hget
    exact ⟨raw, _, j, h1, h2, hj, hfull, (Val.str.inj (Option.some.inj hget)).symm⟩
  · rintro ⟨raw, v, j, h1, h2, h3, rfl, rfl⟩
    obtain ⟨hd, rfl, hfull, hget, -⟩ := headerInit_ok.mp h3
    obtain ⟨hd', e, hok⟩ := (C26_header_validation (.dict hd)).mp ⟨_, h3⟩
    cases e
    exact ⟨raw, hd, h1, h2, hok, hfull, hget⟩

/-- A token of three parts with a valid header. -/
theorem deserialize_heads {cr : Crypto} {tok hb pb sb : Bytes} (ht : Three tok hb pb sb) {raw : Bytes} {v : Val} {j : JwsHeader}
    (h1 : b64urlDecode hb = .ok raw) (h2 : jsonLoads cr.fe raw = .ok v) (h3 : JwsHeader.init v = .ok j) (key : Jwk) (alg : Option PyStr) :
    Jws.deserialize cr tok key alg true = (if algMatches alg j then
      (validateKey key j >>= fun _ => j.alg.verify cr sb (hb ++ 46 :: pb) key >>= fun _ =>
        b64urlDecode pb >>= fun p => .ok ⟨j, p⟩) else .error (.jose .invalidJWSSerialization)) := by
  obtain ⟨rfl, d1, d2, d3⟩ := ht
  have hs : splitOn 46 (hb ++ by! "." ++ pb ++ by! "." ++ sb) = [hb, pb, sb] := by
    have := split_token hb pb sb d1 d2 d3
    simpa using this
  unfold Jws.deserialize
  rw [hs]
  simp only [h1, ok_bind, h2, h3]
  cases algMatches alg j with
  | true => simp only [Bool.not_true, Bool.false_eq_true, if_false, if_true]; rfl
  | false => rfl

/-- C117: a token of three parts with a valid header is refused as malformed exactly if its algorithm is not the expected one, with
"invalid key" exactly if otherwise the key may not be used, with "invalid signature" exactly if otherwise the signature is not valid, and
if the payload is no base64url text with the error of Python for that. -/
theorem C117_token (cr : Crypto) (hd : Decides cr) (v : Val) (key : Jwk) (hk : Jwk.init cr v = .ok key) (ho : OpsList key.data)
    (tok hb pb sb : Bytes) (ht : Three tok hb pb sb) (h : Dict PyStr Val) (a : PyStr) (hh : Heads cr hb h a) (alg : Option PyStr) (e : Exc) :
    Jws.deserialize cr tok key alg true = .error e ↔
      (¬ ExpectedAlg alg a ∧ e = .jose .invalidJWSSerialization) ∨
      (ExpectedAlg alg a ∧ ¬ Usable key h a ∧ e = .jose .invalidKey) ∨
      (ExpectedAlg alg a ∧ Usable key h a ∧ ¬ (a = py! "none" ∨ ∃ sig, b64urlDecode sb = .ok sig ∧ SigOk cr a key.mat (hb ++ by! "." ++ pb) sig) ∧
        e = .jose .invalidSignature) ∨
      (ExpectedAlg alg a ∧ Usable key h a ∧ (a = py! "none" ∨ ∃ sig, b64urlDecode sb = .ok sig ∧ SigOk cr a key.mat (hb ++ by! "." ++ pb) sig) ∧
        b64urlDecode pb = .error .binascii ∧ e = .binascii) := by
  have hi := keyInv_of_init hk
  obtain ⟨raw, w, j, h1, h2, h3, rfl, rfl⟩ := heads_iff.mp hh
  rw [deserialize_heads ht h1 h2 h3]
  have hex := expected_iff h3 alg
  have hmsg : hb ++ by! "." ++ pb = hb ++ 46 :: pb := by simp
  rw [hmsg]
  by_cases hx : algMatches alg j = true
  · have hx' := hex.mp hx
    rw [if_pos hx]
    simp only [hx', not_true, false_and, true_and, false_or]
    cases hv : validateKey key j with
    | error e' =>
      have he' := validateKey_invalid ho hv
      subst he'
      have hns : ¬ Suits key.data j.data := by
        intro hs
        rw [(validateKey_suits h3).mpr hs] at hv
        cases hv
      have hnu : ¬ Usable key j.data j.alg.name := fun hu => hns hu.1
      simp only [error_bind, hnu, not_false_eq_true, true_and, false_and, or_false, Except.error.injEq]
      exact eq_comm
    | ok u =>
      have hs := (validateKey_suits h3).mp hv
      have halg := hs.alg
      rw [dget_of_get (header_alg h3)] at halg
      rw [ok_bind]
      have rest : (b64urlDecode pb >>= fun p => (.ok ⟨j, p⟩ : Res Jws)) = .error e ↔ b64urlDecode pb = .error .binascii ∧ e = .binascii := by
        rw [bind_error_iff]
        constructor
        · rintro (hp | ⟨p, -, hp⟩)
          · have := b64urlDecode_error hp
            subst this
            exact ⟨hp, rfl⟩
          · cases hp
        · rintro ⟨hp, rfl⟩
          exact Or.inl hp
      by_cases hn : j.alg = .none
      · have hname : j.alg.name = py! "none" := by rw [hn]; rfl
        have hu : Usable key j.data j.alg.name := ⟨hs, Or.inl hname⟩
        have : j.alg.verify cr sb (hb ++ 46 :: pb) key = .ok () := by rw [hn]; rfl
        rw [this, ok_bind, rest]
        rw [hname] at hu ⊢
        simp only [hu, not_true, false_and, false_or, true_and, true_or]
      · have hnn : j.alg.name ≠ py! "none" := fun hc => hn (JwsAlg.name_inj (b := .none) hc)
        have hvi := verify_iff (cr := cr) (msg := hb ++ 46 :: pb) (sb := sb) hi hn halg
        cases hver : j.alg.verify cr sb (hb ++ 46 :: pb) key with
        | error e' =>
          rw [error_bind, Except.error.injEq]
          rcases verify_error hd hi hn halg hver with ⟨hf, rfl⟩ | ⟨hf, hsig, rfl⟩
          · have hnu : ¬ Usable key j.data j.alg.name := by
              rintro ⟨-, hu | hu⟩
              · exact hnn hu
              · exact hf hu
            simp only [hnu, not_false_eq_true, true_and, false_and, or_false]
            exact eq_comm
          · have hu : Usable key j.data j.alg.name := ⟨hs, Or.inr hf⟩
            have hns : ¬ (j.alg.name = py! "none" ∨ ∃ sig, b64urlDecode sb = .ok sig ∧ SigOk cr j.alg.name key.mat (hb ++ 46 :: pb) sig) := by
              rintro (hc | hc)
              · exact hnn hc
              · exact hsig hc
            simp only [hu, hns, not_true, not_false_eq_true, true_and, false_and, false_or, or_false]
            exact eq_comm
        | ok u =>
          have hsig := hvi.mp hver
          have hu : Usable key j.data j.alg.name := by
            obtain ⟨_, -, hsig⟩ := hsig
            exact ⟨hs, Or.inr (algFits_of_sigOk hsig)⟩
          have hok : j.alg.name = py! "none" ∨ ∃ sig, b64urlDecode sb = .ok sig ∧ SigOk cr j.alg.name key.mat (hb ++ 46 :: pb) sig := Or.inr hsig
          rw [ok_bind, rest]
          simp only [hu, hok, not_true, false_and, false_or, true_and]
  · have hx' : ¬ ExpectedAlg alg j.alg.name := fun hc => hx (hex.mpr hc)
    rw [if_neg hx]
    simp only [hx', not_false_eq_true, true_and, false_and, or_false, Except.error.injEq]
    exact eq_comm

/-- C117: a token with a header that is not valid is refused with the error of the header (see C115). -/
theorem C117_header (cr : Crypto) (key : Jwk) (tok hb pb sb raw : Bytes) (w : Val) (ht : Three tok hb pb sb) (h1 : b64urlDecode hb = .ok raw)
    (h2 : jsonLoads cr.fe raw = .ok w) (alg : Option PyStr) (val : Bool) (e : Exc) (he : HeaderRefused w e) :
    Jws.deserialize cr tok key alg val = .error e := by
  obtain ⟨rfl, d1, d2, d3⟩ := ht
  have hs : splitOn 46 (hb ++ by! "." ++ pb ++ by! "." ++ sb) = [hb, pb, sb] := by
    have := split_token hb pb sb d1 d2 d3
    simpa using this
  unfold Jws.deserialize
  rw [hs]
  simp only [h1, ok_bind, h2, (C115_header_partial w e).mpr he, error_bind]

/-- C117, signing: a key that may not be used, or that has no private part, is refused as invalid. -/
theorem C117_sign (cr : Crypto) (hv : Val) (h : JwsHeader) (hh : JwsHeader.init hv = .ok h) (a : PyStr)
    (ha : dget h.data (py! "alg") = .str a) (v : Val) (key : Jwk) (hk : Jwk.init cr v = .ok key) (ho : OpsList key.data) (payload : Bytes)
    (seed : Nat) (he : Encodable (jsonDumps cr.fe (.dict h.data)))
    (hu : ¬ Usable key h.data a ∨ (a ≠ py! "none" ∧ ¬ HasSecretPart key.mat)) :
    Jws.serialize cr ⟨h, payload⟩ key seed = .error (.jose .invalidKey) := by
  have hi := keyInv_of_init hk
  have hname : h.alg.name = a := by
    rw [dget_of_get (header_alg hh)] at ha
    exact Val.str.inj ha
  subst hname
  unfold Jws.serialize
  cases hval : validateKey key h with
  | error e => rw [validateKey_invalid ho hval]
  | ok u =>
    have hs := (validateKey_suits hh).mp hval
    have halg := hs.alg
    rw [ha] at halg
    simp only
    obtain ⟨hb, hhb⟩ := utf8Encode_ok he
    unfold Jws.message
    rw [hhb]
    simp only
    have hn : h.alg ≠ .none := by
      intro hn
      rcases hu with hu | ⟨hu, -⟩
      · exact hu ⟨hs, Or.inl (by rw [hn]; rfl)⟩
      · exact hu (by rw [hn]; rfl)
    unfold JwsAlg.sign
    split
    · rename_i e hx
      split at hx
      · cases hx
      · rename_i hash pad hp
        by_cases hf : AlgFits h.alg.name key.mat
        · rw [algValidateKey_ok hi halg hf] at hx
          simp only at hx
          rcases hu with hu | ⟨-, hu⟩
          · exact absurd ⟨hs, Or.inr hf⟩ hu
          · have := matSign_error (cr := cr) (msg := b64urlEncode hb ++ 46 :: b64urlEncode payload) (seed := seed) hp hf hu
            rw [this] at hx
            cases hx; rfl
        · rw [algValidateKey_unfit hi hn hf] at hx
          cases hx; rfl
    · rename_i s hx
      exfalso
      split at hx
      · rename_i hp; exact hn (params_none.mp hp)
      · rename_i hash pad hp
        by_cases hf : AlgFits h.alg.name key.mat
        · rw [algValidateKey_ok hi halg hf] at hx
          simp only at hx
          rcases hu with hu | ⟨-, hu⟩
          · exact absurd ⟨hs, Or.inr hf⟩ hu
          · have := matSign_error (cr := cr) (msg := b64urlEncode hb ++ 46 :: b64urlEncode payload) (seed := seed) hp hf hu
            rw [this] at hx
            cases hx
        · rw [algValidateKey_unfit hi hn hf] at hx
          cases hx

/-- The toy primitives say yes or no. -/
example : Decides toyCrypto := by
  intro n e pad hash msg sig ex h
  simp [toyCrypto] at h

/-- A token with a wrong signature. -/
example : Jws.deserialize toyCrypto (b64urlEncode (by! "{\"alg\": \"HS256\", \"kid\": \"k1\"}") ++ by! "." ++ by! "aGk" ++ by! "." ++ by! "AAAA") boundKey
    none true = .error (.jose .invalidSignature) := by
  have hl : jsonLoads toyCrypto.fe (by! "{\"alg\": \"HS256\", \"kid\": \"k1\"}") = .ok (.dict boundHeader.data) :=
    header_reads_back (h := boundHeader) toyFloat_laws (by simp [boundHeader, Val.Wf, Val.WfD]) rfl
  obtain ⟨_, he, hok⟩ := (C26_header_validation (.dict boundHeader.data)).mp ⟨boundHeader, rfl⟩
  cases he
  refine (C117_token toyCrypto (by intro n e pad hash msg sig ex h; simp [toyCrypto] at h) (.dict boundKey.data) boundKey rfl (Or.inr ⟨_, rfl⟩) _ _ _ _
    ⟨rfl, no_dot _, by decide, by decide⟩ boundHeader.data (py! "HS256")
    ⟨_, boundHeader.data, b64_roundtrip _, hl, hok, rfl, rfl⟩ none _).mpr
    (Or.inr (Or.inr (Or.inl ⟨Or.inl rfl, ⟨boundKey_suits, Or.inr (.hs256 _)⟩, ?_, rfl⟩)))
  rintro (h | ⟨sig, h1, h2⟩)
  · exact absurd h (by decide)
  · have hx : b64urlDecode (by! "AAAA") = .ok [0, 0, 0] := by decide +kernel
    rw [hx] at h1
    cases h1
    generalize hm : boundKey.mat = m at h2
    cases h2

/-- A public key does not sign. -/
example (seed : Nat) : Jws.serialize toyCrypto ⟨esHeader, by! "hi"⟩ ecPubKey seed = .error (.jose .invalidKey) :=
  C117_sign toyCrypto (.dict esHeader.data) esHeader rfl (py! "ES256") rfl (.dict ecPubKey.data) ecPubKey rfl (Or.inl rfl) _ _
    (by unfold Encodable; decide) (Or.inr ⟨by decide, fun h => h rfl⟩)

/-! ## C118: keys -/

/-- The types of keys are those of the specification. -/
theorem ktyOf_none {s : PyStr} : Kty.ofName s = none ↔ s ∉ keyTypes := by
  constructor
  · intro h hm
    revert h
    simp only [keyTypes, List.mem_cons, List.not_mem_nil, or_false] at hm
    rcases hm with rfl | rfl | rfl <;> decide
  · intro h
    cases ho : Kty.ofName s with
    | none => rfl
    | some k =>
      refine absurd ?_ h
      rw [Kty.ofName_some ho]
      cases k <;> decide

/-- C118, in part: exactly which keys are refused because their type is not supported. -/
theorem C118_type_partial (cr : Crypto) (hf : Foreign cr) (v : Val) :
    Jwk.init cr v = .error (.jose .unsupportedAlgorithm) ↔ ∃ d, v = .dict d ∧ d ≠ [] ∧ ¬ Unhashable (dget d (py! "kty")) ∧
      ∀ t ∈ keyTypes, dget d (py! "kty") ≠ .str t := by
  constructor
  · intro h
    unfold Jwk.init at h
    split at h
    · rename_i d
      split at h
      · cases h
      rename_i hd
      refine ⟨d, rfl, hd, ?_⟩
      split at h
      · cases h
      · cases h
      · rename_i s hs
        rw [hs]
        split at h
        · rename_i hn
          refine ⟨(by rintro (⟨_, h⟩ | ⟨_, h⟩) <;> cases h), ?_⟩
          intro t ht heq
          cases heq
          exact ktyOf_none.mp hn ht
        · rename_i k hk
          split at h
          · rename_i e he
            cases h
            cases k with
            | oct => exact absurd he octInit_foreign
            | rsa => exact absurd he (rsaInit_foreign hf)
            | ec => cases (ecInit_jose he).1
          · cases h
      · rename_i h1 h2 h3
        refine ⟨?_, fun t _ ht => h3 t ht⟩
        rintro (⟨l, hl⟩ | ⟨m, hm⟩)
        · exact h1 l hl
        · exact h2 m hm
    · cases h
  · rintro ⟨d, rfl, hd, hu, ht⟩
    unfold Jwk.init
    simp only
    rw [if_neg hd]
    split
    · rename_i l hl; exact absurd (Or.inl ⟨l, hl⟩) hu
    · rename_i m hm; exact absurd (Or.inr ⟨m, hm⟩) hu
    · rename_i s hs
      rw [ktyOf_none.mpr (fun hm => ht s hm hs)]
    · rfl

/-- C118, in part: exactly which keys are refused as invalid: what is no object or an empty one, and elliptic curve keys with an unknown
curve. -/
theorem C118_invalid_partial (cr : Crypto) (hf : Foreign cr) (v : Val) :
    Jwk.init cr v = .error (.jose .invalidKey) ↔ (∀ d, v = .dict d → d = []) ∨
      ∃ d c, v = .dict d ∧ dget d (py! "kty") = .str (py! "EC") ∧ Dict.mem d (py! "self") = false ∧ Dict.get d (py! "crv") = some c ∧
        ¬ Unhashable c ∧ (∀ t ∈ curves, c ≠ .str t) ∧ Dict.get d (py! "x") ≠ none ∧ Dict.get d (py! "y") ≠ none := by
  constructor
  · intro h
    unfold Jwk.init at h
    split at h
    · rename_i d
      split at h
      · rename_i hd
        left
        rintro d' ⟨⟩
        exact hd
      right
      split at h
      · cases h
      · cases h
      · rename_i s hs
        split at h
        · cases h
        · rename_i k hk
          split at h
          · rename_i e he
            cases h
            cases k with
            | oct => exact absurd he octInit_foreign
            | rsa => exact absurd he (rsaInit_foreign hf)
            | ec =>
              obtain ⟨-, h1, ⟨c, h2, h3, h4⟩, h5, h6⟩ := ecInit_jose he
              rw [Kty.ofName_some hk] at hs
              exact ⟨d, c, rfl, hs, h1, h2, h3, h4, h5, h6⟩
          · cases h
      · cases h
    · rename_i hn
      left
      intro d hd
      exact absurd hd (hn d)
  · rintro (h | ⟨d, c, rfl, hk, hs, hc, hu, ht, hx, hy⟩)
    · unfold Jwk.init
      split
      · rename_i d
        rw [if_pos (h d rfl)]
      · rfl
    · unfold Jwk.init
      simp only
      rw [if_neg (by rintro rfl; cases hc), hk]
      have hn : Kty.ofName (py! "EC") = some .ec := by decide
      simp only [hn, materialInit, ecInit_unknown hs hc hu ht hx hy]

/-- C118 is violated: a missing member, a member called `self` and a curve that is a list are a `TypeError`, numbers that are not those of a key are a `ValueError`, text that is no
base64 is an error of Python. -/
theorem C118_refuted (cr : Crypto) :
    (∀ t ∈ keyTypes, Jwk.init cr (.dict [(py! "kty", .str t)]) = .error .typeErr) ∧
    (∀ c x y, x ≠ 0 → y ≠ 0 → cr.ecPubOk c x y = false → Jwk.init cr (.dict [(py! "kty", .str (py! "EC")), (py! "crv", .str c.name),
      (py! "x", numVal x), (py! "y", numVal y)]) = .error .valueErr) ∧
    (∀ n e r, NoZero (.rsa n e (some r)) → cr.rsaPubOk n e = true → cr.rsaPrivOk n e r = false →
      Jwk.init cr (.dict ((py! "kty", .str (py! "RSA")) :: rsaArgs n e (some r))) = .error .valueErr) ∧
    Jwk.init cr (.dict [(py! "kty", .str (py! "oct")), (py! "k", .str (py! "A"))]) = .error .binascii ∧
    (∀ d, dget d (py! "kty") ∈ keyTypes.map Val.str → Dict.mem d (py! "self") = true → Jwk.init cr (.dict d) = .error .typeErr) ∧
    (∀ l x y, Jwk.init cr (.dict [(py! "kty", .str (py! "EC")), (py! "crv", .list l), (py! "x", x), (py! "y", y)]) = .error .typeErr) ∧
    (∀ c x y d, x ≠ 0 → y ≠ 0 → d ≠ 0 → cr.ecPubOk c x y = true → cr.ecPrivOk c x y d = false → Jwk.init cr (.dict [(py! "kty", .str (py! "EC")),
      (py! "crv", .str c.name), (py! "x", numVal x), (py! "y", numVal y), (py! "d", numVal d)]) = .error .valueErr) := by
  refine ⟨?_, ?_, ?_, ?_, ?_, ?_, ?_⟩
  · intro t ht
    simp only [keyTypes, List.mem_cons, List.not_mem_nil, or_false] at ht
    rcases ht with rfl | rfl | rfl <;> rfl
  · intro c x y hx hy hn
    unfold Jwk.init
    simp only
    rw [if_neg (by simp)]
    have hk : Kty.ofName (py! "EC") = some .ec := by decide
    have hd : ∀ a b c' : Val, dget [(py! "kty", .str (py! "EC")), (py! "crv", a), (py! "x", b), (py! "y", c')] (py! "kty") = .str (py! "EC") :=
      fun _ _ _ => rfl
    have he : ecInit cr [(py! "kty", .str (py! "EC")), (py! "crv", .str c.name), (py! "x", numVal x), (py! "y", numVal y)] =
        .error .valueErr := by
      have hself : ∀ a b c' : Val, Dict.mem [(py! "kty", .str (py! "EC")), (py! "crv", a), (py! "x", b), (py! "y", c')] (py! "self") = false :=
        fun _ _ _ => rfl
      have h1 : ∀ a b c' : Val, arg [(py! "kty", .str (py! "EC")), (py! "crv", a), (py! "x", b), (py! "y", c')] (py! "crv") = .ok a := fun _ _ _ => rfl
      have h2 : ∀ a b c' : Val, arg [(py! "kty", .str (py! "EC")), (py! "crv", a), (py! "x", b), (py! "y", c')] (py! "x") = .ok b := fun _ _ _ => rfl
      have h3 : ∀ a b c' : Val, arg [(py! "kty", .str (py! "EC")), (py! "crv", a), (py! "x", b), (py! "y", c')] (py! "y") = .ok c' := fun _ _ _ => rfl
      unfold ecInit
      rw [hself, h1, h2, h3]
      simp only [Bool.false_eq_true, if_false, ok_bind, Val.hashable, Bool.not_true, Curve.ofName_name,
        b64ToIntV_numVal (Nat.pos_of_ne_zero hx), b64ToIntV_numVal (Nat.pos_of_ne_zero hy), hn, Bool.not_false, if_true]
      rfl
    rw [hd]
    simp only [hk, materialInit, he]
  · intro n e r hz hp hq
    obtain ⟨h1, h2, h3⟩ := hz
    obtain ⟨h3, h4, h5, h6, h7, h8⟩ := h3 r rfl
    have pos : ∀ {m : Nat}, m ≠ 0 → 0 < m := Nat.pos_of_ne_zero
    have hk : Kty.ofName (py! "RSA") = some .rsa := by decide
    have he : ∀ d : Dict PyStr Val, Dict.mem d (py! "self") = false → arg d (py! "n") = .ok (numVal n) → arg d (py! "e") = .ok (numVal e) →
        dget d (py! "d") = numVal r.d → dget d (py! "p") = numVal r.p → dget d (py! "q") = numVal r.q → dget d (py! "dp") = numVal r.dp →
        dget d (py! "dq") = numVal r.dq → dget d (py! "qi") = numVal r.qi → rsaInit cr d = .error .valueErr := by
      intro d g0 g1 g2 g3 g4 g5 g6 g7 g8
      have hpriv : rsaPrivate cr n e d = .ok r := by
        unfold rsaPrivate
        rw [g3, g4, g5, g6, g7, g8]
        simp only [b64ToIntV_numVal (pos h4), b64ToIntV_numVal (pos h5), b64ToIntV_numVal (pos h6), b64ToIntV_numVal (pos h7),
          b64ToIntV_numVal (pos h8), b64ToNat_numVal (pos h3), ok_bind, falsyNum_pos (pos h4), falsyNum_pos (pos h5), falsyNum_pos (pos h6),
          falsyNum_pos (pos h7), falsyNum_pos (pos h8), numOr, Bool.or_self, Bool.false_eq_true, if_false, numD, Option.getD_some]
        rfl
      unfold rsaInit
      rw [g0, g1, g2]
      simp only [Bool.false_eq_true, if_false, ok_bind, b64ToIntV_numVal (pos h1), b64ToIntV_numVal (pos h2), hp, Bool.not_true,
        g3, numVal_truthy (pos h3), if_true, hpriv, hq, Bool.not_false]
    unfold Jwk.init
    simp only
    rw [if_neg (by simp)]
    have hd : ∀ l : Dict PyStr Val, dget ((py! "kty", .str (py! "RSA")) :: l) (py! "kty") = .str (py! "RSA") := fun _ => rfl
    rw [hd]
    simp only [hk, materialInit]
    rw [he _ rfl rfl rfl rfl rfl rfl rfl rfl rfl]
  · unfold Jwk.init
    simp only
    rw [if_neg (by simp)]
    rfl
  · intro d hk hs
    have hne : d ≠ [] := by rintro rfl; cases hs
    simp only [keyTypes, List.map, List.mem_cons, List.not_mem_nil, or_false] at hk
    unfold Jwk.init
    simp only [if_neg hne]
    rcases hk with h | h | h <;> rw [h] <;> dsimp only
    · simp only [show Kty.ofName (py! "EC") = some .ec from rfl, materialInit, ecInit, hs, if_true]
    · simp only [show Kty.ofName (py! "RSA") = some .rsa from rfl, materialInit, rsaInit, hs, if_true]
    · simp only [show Kty.ofName (py! "oct") = some .oct from rfl, materialInit, octInit, hs, if_true]
  · intro l x y
    unfold Jwk.init
    simp only
    rw [if_neg (by simp)]
    rfl
  · intro c x y d hx hy hd hp hn
    have hi : ∀ a b c' d' : Val, Jwk.init cr (.dict [(py! "kty", .str (py! "EC")), (py! "crv", a), (py! "x", b), (py! "y", c'), (py! "d", d')]) =
        (match ecInit cr [(py! "kty", .str (py! "EC")), (py! "crv", a), (py! "x", b), (py! "y", c'), (py! "d", d')] with
        | .error e => .error e
        | .ok m => .ok ⟨fullDict [(py! "kty", .str (py! "EC")), (py! "crv", a), (py! "x", b), (py! "y", c'), (py! "d", d')], m⟩) :=
      fun _ _ _ _ => rfl
    rw [hi]
    have hself : ∀ a b c' d' : Val, Dict.mem [(py! "kty", .str (py! "EC")), (py! "crv", a), (py! "x", b), (py! "y", c'), (py! "d", d')]
        (py! "self") = false := fun _ _ _ _ => rfl
    have h1 : ∀ a b c' d' : Val, arg [(py! "kty", .str (py! "EC")), (py! "crv", a), (py! "x", b), (py! "y", c'), (py! "d", d')] (py! "crv") =
        .ok a := fun _ _ _ _ => rfl
    have h2 : ∀ a b c' d' : Val, arg [(py! "kty", .str (py! "EC")), (py! "crv", a), (py! "x", b), (py! "y", c'), (py! "d", d')] (py! "x") =
        .ok b := fun _ _ _ _ => rfl
    have h3 : ∀ a b c' d' : Val, arg [(py! "kty", .str (py! "EC")), (py! "crv", a), (py! "x", b), (py! "y", c'), (py! "d", d')] (py! "y") =
        .ok c' := fun _ _ _ _ => rfl
    have h4 : ∀ a b c' d' : Val, dget [(py! "kty", .str (py! "EC")), (py! "crv", a), (py! "x", b), (py! "y", c'), (py! "d", d')] (py! "d") =
        d' := fun _ _ _ _ => rfl
    have pos : ∀ {m : Nat}, m ≠ 0 → 0 < m := Nat.pos_of_ne_zero
    unfold ecInit
    rw [hself, h1, h2, h3, h4]
    simp only [Bool.false_eq_true, if_false, ok_bind, Val.hashable, Bool.not_true, Curve.ofName_name, b64ToIntV_numVal (pos hx),
      b64ToIntV_numVal (pos hy), hp, numVal_truthy (pos hd), if_true, b64ToNat_numVal (pos hd), hn, Bool.not_false]
    rfl

/-- The toy primitives raise no errors of the library. -/
example : Foreign toyCrypto :=
  ⟨nofun, nofun, nofun, nofun⟩

/-- A type that is not supported. -/
example : Jwk.init toyCrypto (.dict [(py! "kty", .str (py! "OKP"))]) = .error (.jose .unsupportedAlgorithm) :=
  (C118_type_partial toyCrypto ⟨nofun, nofun, nofun, nofun⟩ _).mpr
    ⟨_, rfl, by simp, (by rintro (⟨_, h⟩ | ⟨_, h⟩) <;> cases h), by
      intro t ht h
      cases h
      revert ht
      decide⟩

/-- A point that is not on the curve. -/
example : toyCrypto.ecPubOk .p256 3 0 = false ∧ toyCrypto.rsaPrivOk 15 3 ⟨3, 3, 7, 1, 3, 2⟩ = false := by decide

end Psion.Props
