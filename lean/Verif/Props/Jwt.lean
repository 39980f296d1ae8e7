import Verif.Jose.JwtLemmas
import Verif.Props.Jwk

/-!
# Properties C28 – C34: Json Web Tokens (`/repo/src/psion/jose/jwt.py`)
-/

namespace Psion.Props

open Psion Psion.Spec

/-! Facts used by several properties. -/

theorem token_ascii {cr : Crypto} {j : Jws} {sk : Jwk} {seed : Nat} {tok : Bytes}
    (h : j.serialize cr sk seed = .ok tok) : ∀ c ∈ tok, c.val < 128 := by
  obtain ⟨m, s, -, hm, hsig, rfl⟩ := serialize_ok.mp h
  unfold Jws.message at hm
  split at hm
  · cases hm
  rename_i hb _
  cases hm
  have hs : ∀ c ∈ s, c.val < 128 := by
    simp only [JwsAlg.sign] at hsig
    split at hsig
    · cases hsig; simp
    · split at hsig
      · cases hsig
      · split at hsig
        · cases hsig
        · cases hsig; exact b64url_ascii _
  intro c hc
  simp only [List.mem_append, List.mem_cons] at hc
  rcases hc with (hc | rfl | hc) | rfl | hc
  · exact b64url_ascii _ c hc
  · decide
  · exact b64url_ascii _ c hc
  · decide
  · exact hs c hc

/-- The text of a token is read back as the bytes that were signed. -/
theorem encode_bytes {cr : Crypto} {t : Jwt} {sk : Jwk} {seed : Nat} {tok : PyStr}
    (h : t.encode cr sk seed = .ok tok) :
    ∃ b, t.jws.serialize cr sk seed = .ok b ∧ utf8Encode tok = .ok b := by
  unfold Jwt.encode at h
  split at h
  · cases h
  · rename_i b hb
    cases h
    refine ⟨b, hb, ?_⟩
    rw [toStringB_ascii (token_ascii hb)]
    exact utf8Encode_asciiStr (token_ascii hb)

theorem claimTypes_fullDict {c : Dict PyStr Val} (hok : Dict.Ok c) (h : ClaimTypes c) :
    ClaimTypes (fullDict c) := by
  obtain ⟨h1, h2, h3⟩ := h
  constructor
  · intro k hk; rw [dget_fullDict hok]; exact h1 k hk
  · rw [dget_fullDict hok]; exact h2
  · intro k hk; rw [dget_fullDict hok]; exact h3 k hk

theorem inWindow_fullDict {n : Int} {c : Dict PyStr Val} (hok : Dict.Ok c) :
    InWindow n (fullDict c) ↔ InWindow n c := by
  constructor
  · rintro ⟨h1, h2, h3⟩
    rw [dget_fullDict hok] at h1 h2 h3
    exact ⟨h1, h2, h3⟩
  · rintro ⟨h1, h2, h3⟩
    constructor <;> rw [dget_fullDict hok] <;> assumption

/-! Dictionaries that come out of the JSON parser have no repeated names. -/

theorem scanMembers_ok {fe : FloatEnv} : ∀ (n : Nat) (acc : Dict PyStr Val) (s : PyStr)
    (d : Dict PyStr Val) (r : PyStr), Dict.Ok acc → scanMembers fe n acc s = some (d, r) → Dict.Ok d
  | 0, _, _, _, _, _, h => by simp [scanMembers] at h
  | n + 1, acc, s, d, r, hacc, h => by
    unfold scanMembers at h
    split at h
    · split at h
      · cases h
      · split at h
        · split at h
          · cases h
          · split at h
            · cases h; exact Dict.ok_set hacc _ _
            · exact scanMembers_ok n _ _ d r (Dict.ok_set hacc _ _) h
            · cases h
        · cases h
    · cases h

theorem jsonParse_ok_dict {fe : FloatEnv} {s : PyStr} {d : Dict PyStr Val}
    (h : jsonParse fe s = .ok (.dict d)) : Dict.Ok d := by
  unfold jsonParse at h
  split at h
  · cases h
  · split at h
    · cases h
    · rename_i v r hs
      split at h
      · cases h
        have hh := scanOnce_dict hs
        generalize skipWs s = t at hs hh
        cases t with
        | nil => simp at hh
        | cons c t =>
          simp only [List.head?_cons, Option.some.injEq] at hh
          subst hh
          simp only [scanOnce] at hs
          rw [if_neg (by decide), if_pos trivial] at hs
          split at hs
          · cases hs; simp [Dict.Ok, Dict.keys]
          · rw [Option.map_eq_some_iff] at hs
            obtain ⟨p, hp, e⟩ := hs
            cases e
            exact scanMembers_ok _ _ _ _ _ (by simp [Dict.Ok, Dict.keys]) hp
      · cases h

theorem jsonLoads_ok_dict {fe : FloatEnv} {b : Bytes} {d : Dict PyStr Val}
    (h : jsonLoads fe b = .ok (.dict d)) : Dict.Ok d := jsonParse_ok_dict h

/-- What is known about every token that `decode` returns, in terms of its own claims. -/
theorem decode_claims {cr : Crypto} {n1 n2 : Int} {tok : Bytes} {key : Jwk} {alg : Option PyStr}
    {val : Bool} {opts : Val} {t : Jwt}
    (h : Jwt.decode cr n1 n2 tok key alg val opts = .ok t) :
    ClaimTypes t.claims ∧ InWindow n1 t.claims ∧ InWindow n2 t.claims ∧
      (val = true → ∀ o, opts = .dict o → ∃ c, (∀ k, dget c k = dget t.claims k) ∧
        validateClaims c o = .ok ()) := by
  obtain ⟨jws, c, -, hl, -, hc, -, h1, h2, h3, -, ho⟩ := decode_ok h
  have hok := jsonLoads_ok_dict hl
  rw [hc]
  refine ⟨h2, (inWindow_fullDict hok).mpr h1, h3, ?_⟩
  intro hv o he
  exact ⟨c, fun k => (dget_fullDict hok k).symm, ho hv o he⟩

/-! Sample tokens for the examples. -/

/-- Claims of the sample token. -/
def sampleClaims : Dict PyStr Val :=
  [(py! "iss", .str (py! "me")), (py! "exp", .int 100), (py! "nbf", .int 10)]

def sampleJwt : Jwt :=
  ⟨hsHeader, sampleClaims, ⟨hsHeader, by! "{\"iss\": \"me\", \"exp\": 100, \"nbf\": 10}"⟩⟩

example : Jwt.init toyCrypto 50 (.dict sampleClaims) (.dict hsHeader.data) = .ok sampleJwt := by rfl

/-! ## C28 -/

/-- Round trip with options: the common core of C28 and of the counterexamples below. -/
theorem jwt_roundtrip (cr : Crypto) (hf : FloatLaws cr.fe) (n0 : Int) (c : Dict PyStr Val)
    (hok : Dict.Ok c) (hv : Val) (t : Jwt) (ht : Jwt.init cr n0 (.dict c) hv = .ok t)
    (hne : t.claims ≠ []) (hwc : (Val.dict t.claims).Wf) (hwh : (Val.dict t.header.data).Wf)
    (sk vk : Jwk) (seed : Nat) (tok : PyStr) (henc : t.encode cr sk seed = .ok tok)
    (hpair : GenuinePair cr sk.mat vk.mat) (hsame : SameRestrictions sk vk)
    (alg : Option PyStr)
    (halg : alg = none ∨ ∃ a, alg = some a ∧ dget t.header.data (py! "alg") = .str a)
    (n1 n2 : Int) (h1 : InWindow n1 c) (h2 : InWindow n2 c) (opts : Val)
    (hopt : ∀ o, opts = .dict o → validateClaims t.claims o = .ok ()) :
    Jwt.decodeStr cr n1 n2 tok vk alg true opts = .ok t := by
  obtain ⟨hh, hc, p, hp, hj⟩ := jwtInit_ok.mp ht
  obtain ⟨c', e, -, hc', ht', -, -⟩ := claimsInit_ok.mp hc
  cases e
  obtain ⟨b, hb, hbe⟩ := encode_bytes henc
  rw [hj] at hb
  have hd := C19_jws_roundtrip cr hf hv t.header hh hwh p sk vk seed b hb hpair hsame alg halg
  unfold Jwt.decodeStr
  rw [hbe, ok_bind]
  unfold Jwt.decode
  rw [hd, ok_bind]
  have hload : jsonLoads cr.fe p = .ok (.dict t.claims) := by
    unfold jsonLoads toStringB
    rw [utf8Decode_encode hp]
    exact jsonParse_print cr.fe hf _ hwc
  simp only [hload, ok_bind, if_true]
  have hct : ClaimTypes t.claims := by rw [hc']; exact claimTypes_fullDict hok ht'
  have hidem : t.claims = fullDict t.claims := by rw [hc', fullDict_idem]
  have w1 : InWindow n1 t.claims := by rw [hc']; exact (inWindow_fullDict hok).mpr h1
  have w2 : InWindow n2 t.claims := by rw [hc']; exact (inWindow_fullDict hok).mpr h2
  have hci1 : claimsInit n1 (.dict t.claims) opts = .ok t.claims :=
    claimsInit_ok.mpr ⟨t.claims, rfl, hne, hidem, hct, w1, hopt⟩
  have hci2 : claimsInit n2 (.dict t.claims) .none = .ok t.claims :=
    claimsInit_ok.mpr ⟨t.claims, rfl, hne, hidem, hct, w2, by intro o ho; cases ho⟩
  rw [hci1, ok_bind]
  exact jwtInit_ok.mpr ⟨headerInit_idem hh, hci2, p, hp, hj⟩

/-- Whenever what `encode` produced is decoded with a matching key, the claims are those of the token. -/
theorem jwt_decoded (cr : Crypto) (hf : FloatLaws cr.fe) (n0 : Int) (cv : Val) (hv : Val) (t : Jwt)
    (ht : Jwt.init cr n0 cv hv = .ok t) (hwc : (Val.dict t.claims).Wf) (hwh : (Val.dict t.header.data).Wf)
    (sk vk : Jwk) (seed : Nat) (tok : PyStr) (henc : t.encode cr sk seed = .ok tok)
    (hpair : GenuinePair cr sk.mat vk.mat) (hsame : SameRestrictions sk vk) (alg : Option PyStr)
    (halg : alg = none ∨ ∃ a, alg = some a ∧ dget t.header.data (py! "alg") = .str a)
    (n1 n2 : Int) (opts : Val) (t' : Jwt) (hdec : Jwt.decodeStr cr n1 n2 tok vk alg true opts = .ok t') :
    t'.claims = t.claims ∧ t'.header = t.header := by
  obtain ⟨hh, hc, p, hp, hj⟩ := jwtInit_ok.mp ht
  obtain ⟨c', e, -, hc', -, -, -⟩ := claimsInit_ok.mp hc
  obtain ⟨b, hb, hbe⟩ := encode_bytes henc
  rw [hj] at hb
  have hd := C19_jws_roundtrip cr hf hv t.header hh hwh p sk vk seed b hb hpair hsame alg halg
  unfold Jwt.decodeStr at hdec
  rw [hbe, ok_bind] at hdec
  obtain ⟨jws, c, h1, h2, -, h3, -, -, -, -, h4, -⟩ := decode_ok hdec
  rw [hd] at h1
  cases h1
  have hload : jsonLoads cr.fe p = .ok (.dict t.claims) := by
    unfold jsonLoads toStringB
    rw [utf8Decode_encode hp]
    exact jsonParse_print cr.fe hf _ hwc
  rw [hload] at h2
  cases h2
  exact ⟨by rw [h3, hc', fullDict_idem], h4⟩

/-- C28: what `encode` produces is decoded with the matching key, at all times within the validity window, to a
token with the same header and claims — provided at least one claim is not null. Without this condition
the property is false, see `C28_all_null_refuted`. -/
theorem C28_jwt_roundtrip_partial (cr : Crypto) (hf : FloatLaws cr.fe) (n0 : Int)
    (c : Dict PyStr Val) (hok : Dict.Ok c) (hv : Val) (t : Jwt)
    (ht : Jwt.init cr n0 (.dict c) hv = .ok t)
    (hsome : ∃ k, dget c k ≠ .none) (hwc : (Val.dict t.claims).Wf)
    (hwh : (Val.dict t.header.data).Wf)
    (sk vk : Jwk) (seed : Nat) (tok : PyStr) (henc : t.encode cr sk seed = .ok tok)
    (hpair : GenuinePair cr sk.mat vk.mat) (hsame : SameRestrictions sk vk)
    (alg : Option PyStr)
    (halg : alg = none ∨ ∃ a, alg = some a ∧ dget t.header.data (py! "alg") = .str a)
    (n1 n2 : Int) (h1 : InWindow n1 c) (h2 : InWindow n2 c) :
    ∃ t', Jwt.decodeStr cr n1 n2 tok vk alg true .none = .ok t' ∧ t'.header = t.header ∧
      (∀ k, dget t'.claims k = dget c k) ∧ (∀ k v, (k, v) ∈ t'.claims ↔ (k, v) ∈ c ∧ v ≠ .none) := by
  have hc : t.claims = fullDict c := by
    obtain ⟨-, hc, -⟩ := jwtInit_ok.mp ht
    obtain ⟨c', e, -, hc', -⟩ := claimsInit_ok.mp hc
    cases e; exact hc'
  have hne : t.claims ≠ [] := by
    intro h0
    obtain ⟨k, hk⟩ := hsome
    apply hk
    rw [← dget_fullDict hok, ← hc, h0]
    rfl
  refine ⟨t, jwt_roundtrip cr hf n0 c hok hv t ht hne hwc hwh sk vk seed tok henc hpair hsame alg
    halg n1 n2 h1 h2 .none (by intro o ho; cases ho), rfl, ?_, ?_⟩
  · intro k; rw [hc]; exact dget_fullDict hok k
  · intro k v
    rw [hc]
    unfold fullDict
    rw [List.mem_filter]
    cases v <;> simp [Val.isNone]

/-- The sample token can be encoded, and is in its window at time 50 and not at time 100. -/
example : (∃ tok, sampleJwt.encode toyCrypto octKey 7 = .ok tok) ∧ InWindow 50 sampleClaims ∧
    ¬ InWindow 100 sampleClaims := by
  refine ⟨⟨_, rfl⟩, ?_, ?_⟩
  · constructor
    · intro i hi _; cases hi; decide
    · intro i hi _; cases hi
    · intro i hi _; cases hi; decide
  · intro h
    have := h.exp 100 rfl (by decide)
    omega

/-- C28 is false when all claims are null: such a token is accepted by the constructor and can be encoded with every
suitable key, but it can never be decoded. -/
theorem C28_all_null_refuted (cr : Crypto) (hf : FloatLaws cr.fe) (n0 : Int) (hv : Val) (h : JwsHeader)
    (hh : JwsHeader.init hv = .ok h) (hwh : (Val.dict h.data).Wf) :
    ∃ t, Jwt.init cr n0 (.dict [(py! "a", .none)]) hv = .ok t ∧
      ∀ sk vk seed tok, t.encode cr sk seed = .ok tok → GenuinePair cr sk.mat vk.mat →
        SameRestrictions sk vk → ∀ n1 n2,
        Jwt.decodeStr cr n1 n2 tok vk none true .none = .error (.jose .invalidJWTClaim) := by
  refine ⟨⟨h, [], ⟨h, by! "{}"⟩⟩, ?_, ?_⟩
  · refine jwtInit_ok.mpr ⟨hh, ?_, by! "{}", rfl, rfl⟩
    refine claimsInit_ok.mpr ⟨_, rfl, by simp, rfl, ?_, ?_, by intro o ho; cases ho⟩
    · constructor
      · intro k hk
        simp only [List.mem_cons, List.not_mem_nil, or_false] at hk
        rcases hk with rfl | rfl | rfl <;> exact Or.inl rfl
      · exact Or.inl rfl
      · intro k hk
        simp only [List.mem_cons, List.not_mem_nil, or_false] at hk
        rcases hk with rfl | rfl | rfl <;> exact Or.inl rfl
    · constructor <;> intro i hi <;> cases hi
  · intro sk vk seed tok henc hpair hsame n1 n2
    obtain ⟨b, hb, hbe⟩ := encode_bytes henc
    have hd := C19_jws_roundtrip cr hf hv h hh hwh _ sk vk seed b hb hpair hsame none (Or.inl rfl)
    unfold Jwt.decodeStr
    rw [hbe, ok_bind]
    unfold Jwt.decode
    rw [hd, ok_bind]
    have hload : jsonLoads cr.fe (by! "{}") = .ok (.dict []) := by
      unfold jsonLoads toStringB
      have : utf8Decode (by! "{}") = some (py! "{}") := by decide +kernel
      rw [this]
      rfl
    simp only [hload, ok_bind]
    rfl

example : ∃ tok, (Jwt.mk hsHeader [] ⟨hsHeader, by! "{}"⟩).encode toyCrypto octKey 7 = .ok tok := ⟨_, rfl⟩

/-! ## C29 -/

/-- C29: whatever `decode` returns, with or without validation: a non-zero integer `exp` claim lies in the future
at both times at which the clock is read; any other non-zero number, text or other value is not returned at all. -/
theorem C29_expired_partial (cr : Crypto) (n1 n2 : Int) (tok : Bytes) (key : Jwk) (alg : Option PyStr)
    (val : Bool) (opts : Val) (t : Jwt) (h : Jwt.decode cr n1 n2 tok key alg val opts = .ok t) :
    (∀ i, dget t.claims (py! "exp") = .int i → i ≠ 0 → n1 < i ∧ n2 < i) ∧
    (∀ f, dget t.claims (py! "exp") = .float f → f.isZero = true) := by
  obtain ⟨ht, w1, w2, -⟩ := decode_claims h
  refine ⟨fun i hi h0 => ⟨w1.exp i hi h0, w2.exp i hi h0⟩, ?_⟩
  intro f hf
  rcases ht.date (py! "exp") (by simp) with h | ⟨i, hi⟩
  · rw [hf] at h
    simpa [Val.truthy] using h
  · rw [hf] at hi; cases hi

/-- Hypothesis is satisfiable: the sample token is decoded at time 50. -/
example : ∃ tok, sampleJwt.encode toyCrypto octKey 7 = .ok tok ∧
    Jwt.decodeStr toyCrypto 50 51 tok octKey (some (py! "HS256")) true .none = .ok sampleJwt := by
  refine ⟨_, rfl, ?_⟩
  refine jwt_roundtrip toyCrypto toyFloat_laws 50 sampleClaims (by unfold Dict.Ok; decide)
    (.dict hsHeader.data) sampleJwt rfl (by simp [sampleJwt, sampleClaims]) ?_ ?_ octKey octKey 7 _ rfl
    (C19_oct_pair _ _) (fun _ _ => rfl) _ (Or.inr ⟨_, rfl, rfl⟩) 50 51 ?_ ?_ .none
    (by intro o ho; cases ho)
  · simp [sampleJwt, sampleClaims, Val.Wf, Val.WfD]
  · simp [sampleJwt, hsHeader, Val.Wf, Val.WfD]
  · constructor
    · intro i hi _; cases hi; decide
    · intro i hi _; cases hi
    · intro i hi _; cases hi; decide
  · constructor
    · intro i hi _; cases hi; decide
    · intro i hi _; cases hi
    · intro i hi _; cases hi; decide

/-- C29 is false for `exp = 0`: such a token is accepted at every time. -/
theorem C29_exp_zero_refuted (cr : Crypto) (hf : FloatLaws cr.fe) (s : Bytes) (kd : Dict PyStr Val)
    (n0 : Int) (hv : Val) (h : JwsHeader) (hh : JwsHeader.init hv = .ok h)
    (hwh : (Val.dict h.data).Wf) :
    ∃ t, Jwt.init cr n0 (.dict [(py! "exp", .int 0)]) hv = .ok t ∧
      dget t.claims (py! "exp") = .int 0 ∧
      ∀ seed tok, t.encode cr ⟨kd, .oct s⟩ seed = .ok tok → ∀ n1 n2,
        Jwt.decodeStr cr n1 n2 tok ⟨kd, .oct s⟩ none true .none = .ok t := by
  have hw : ∀ n, InWindow n [(py! "exp", .int 0)] := by
    intro n
    constructor
    · intro i hi h0; cases hi; exact absurd rfl h0
    · intro i hi; cases hi
    · intro i hi; cases hi
  have hinit : Jwt.init cr n0 (.dict [(py! "exp", .int 0)]) hv =
      .ok ⟨h, [(py! "exp", .int 0)], ⟨h, by! "{\"exp\": 0}"⟩⟩ := by
    refine jwtInit_ok.mpr ⟨hh, ?_, _, rfl, rfl⟩
    refine claimsInit_ok.mpr ⟨_, rfl, by simp, rfl, ?_, hw n0, by intro o ho; cases ho⟩
    constructor
    · intro k hk
      simp only [List.mem_cons, List.not_mem_nil, or_false] at hk
      rcases hk with rfl | rfl | rfl <;> exact Or.inl rfl
    · exact Or.inl rfl
    · intro k hk
      simp only [List.mem_cons, List.not_mem_nil, or_false] at hk
      rcases hk with rfl | rfl | rfl <;> exact Or.inl rfl
  refine ⟨_, hinit, rfl, ?_⟩
  intro seed tok henc n1 n2
  exact jwt_roundtrip cr hf n0 _ (by simp [Dict.Ok, Dict.keys]) hv _ hinit (by simp) (by simp [Val.Wf, Val.WfD]) hwh _ _ seed tok
    henc (C19_oct_pair _ _) (fun _ _ => rfl) none (Or.inl rfl) n1 n2 (hw n1) (hw n2) .none
    (by intro o ho; cases ho)

example : ∃ tok, (Jwt.mk hsHeader [(py! "exp", .int 0)] ⟨hsHeader, by! "{\"exp\": 0}"⟩).encode toyCrypto
    octKey 7 = .ok tok := ⟨_, rfl⟩

/-- C29 is also false on every machine east of UTC, because of the way the clock is read: an expired token is accepted
for as long as the time difference. -/
theorem C29_clock_refuted (epoch offset e : Int) (h1 : epoch - offset < e)
    (_expired : e ≤ epoch) (_nonzero : e ≠ 0) :
    claimsInit (libNow epoch offset) (.dict [(py! "exp", .int e)]) .none = .ok [(py! "exp", .int e)] := by
  refine claimsInit_ok.mpr ⟨_, rfl, by simp, rfl, ?_, ?_, by intro o ho; cases ho⟩
  · constructor
    · intro k hk
      simp only [List.mem_cons, List.not_mem_nil, or_false] at hk
      rcases hk with rfl | rfl | rfl <;> exact Or.inl rfl
    · exact Or.inl rfl
    · intro k hk
      simp only [List.mem_cons, List.not_mem_nil, or_false] at hk
      rcases hk with rfl | rfl | rfl
      · exact Or.inr ⟨e, rfl⟩
      · exact Or.inl rfl
      · exact Or.inl rfl
  · constructor
    · intro i hi _; cases hi; exact h1
    · intro i hi; cases hi
    · intro i hi; cases hi

/-- One hour east of UTC, a token that expired half an hour ago. -/
example : (1700000000 : Int) - 3600 < 1700000000 - 1800 ∧ (1700000000 : Int) - 1800 ≤ 1700000000 ∧
    (1700000000 : Int) - 1800 ≠ 0 := by decide

/-- With the clock in UTC the times compared are the real ones. -/
theorem C29_clock_utc (cr : Crypto) (e1 e2 : Int) (tok : Bytes) (key : Jwk) (alg : Option PyStr)
    (val : Bool) (opts : Val) (t : Jwt)
    (h : Jwt.decode cr (libNow e1 0) (libNow e2 0) tok key alg val opts = .ok t) (i : Int)
    (hi : dget t.claims (py! "exp") = .int i) (h0 : i ≠ 0) : e1 < i ∧ e2 < i := by
  have := (C29_expired_partial cr _ _ tok key alg val opts t h).1 i hi h0
  simpa [libNow] using this

/-! ## C30 -/

/-- C30, rejection: at the times read from the clock no returned token has a non-zero integer `nbf` or `iat` in the
future. -/
theorem C30_future_partial (cr : Crypto) (n1 n2 : Int) (tok : Bytes) (key : Jwk) (alg : Option PyStr)
    (val : Bool) (opts : Val) (t : Jwt) (h : Jwt.decode cr n1 n2 tok key alg val opts = .ok t)
    (k : PyStr) (hk : k = py! "nbf" ∨ k = py! "iat") (i : Int) (hi : dget t.claims k = .int i)
    (h0 : i ≠ 0) : i ≤ n1 ∧ i ≤ n2 := by
  obtain ⟨ht, w1, w2, -⟩ := decode_claims h
  rcases hk with rfl | rfl
  · exact ⟨w1.nbf i hi h0, w2.nbf i hi h0⟩
  · exact ⟨w1.iat i hi h0, w2.iat i hi h0⟩

/-- C30 including zero, for clocks that are not before 1970. -/
theorem C30_future_all (cr : Crypto) (n1 n2 : Int) (hn1 : 0 ≤ n1) (hn2 : 0 ≤ n2) (tok : Bytes) (key : Jwk)
    (alg : Option PyStr) (val : Bool) (opts : Val) (t : Jwt)
    (h : Jwt.decode cr n1 n2 tok key alg val opts = .ok t)
    (k : PyStr) (hk : k = py! "nbf" ∨ k = py! "iat") (i : Int) (hi : dget t.claims k = .int i) :
    i ≤ n1 ∧ i ≤ n2 := by
  by_cases h0 : i = 0
  · subst h0; exact ⟨hn1, hn2⟩
  · exact C30_future_partial cr n1 n2 tok key alg val opts t h k hk i hi h0

/-- C30, boundary: claims whose `nbf` and `iat` are equal to the current time are accepted. -/
theorem C30_boundary (now : Int) :
    claimsInit now (.dict [(py! "nbf", .int now), (py! "iat", .int now)]) .none =
      .ok [(py! "nbf", .int now), (py! "iat", .int now)] := by
  refine claimsInit_ok.mpr ⟨_, rfl, by simp, rfl, ?_, ?_, by intro o ho; cases ho⟩
  · constructor
    · intro k hk
      simp only [List.mem_cons, List.not_mem_nil, or_false] at hk
      rcases hk with rfl | rfl | rfl <;> exact Or.inl rfl
    · exact Or.inl rfl
    · intro k hk
      simp only [List.mem_cons, List.not_mem_nil, or_false] at hk
      rcases hk with rfl | rfl | rfl
      · exact Or.inl rfl
      · exact Or.inr ⟨now, rfl⟩
      · exact Or.inr ⟨now, rfl⟩
  · constructor
    · intro i hi; cases hi
    · intro i hi _; cases hi; omega
    · intro i hi _; cases hi; omega

/-- C30 fails on machines that are not set to UTC: west of it claims from the future are accepted, east of it claims
issued at this very moment are refused. -/
theorem C30_clock_refuted (epoch offset : Int) :
    (∀ i, epoch < i → i ≤ epoch - offset →
      claimsInit (libNow epoch offset) (.dict [(py! "nbf", .int i)]) .none = .ok [(py! "nbf", .int i)]) ∧
    (0 < offset → epoch ≠ 0 →
      claimsInit (libNow epoch offset) (.dict [(py! "iat", .int epoch)]) .none =
        .error (.jose .invalidJWTClaim)) := by
  constructor
  · intro i h1 h2
    refine claimsInit_ok.mpr ⟨_, rfl, by simp, rfl, ?_, ?_, by intro o ho; cases ho⟩
    · constructor
      · intro k hk
        simp only [List.mem_cons, List.not_mem_nil, or_false] at hk
        rcases hk with rfl | rfl | rfl <;> exact Or.inl rfl
      · exact Or.inl rfl
      · intro k hk
        simp only [List.mem_cons, List.not_mem_nil, or_false] at hk
        rcases hk with rfl | rfl | rfl
        · exact Or.inl rfl
        · exact Or.inl rfl
        · exact Or.inr ⟨i, rfl⟩
    · constructor
      · intro j hj; cases hj
      · intro j hj; cases hj
      · intro j hj _; cases hj; exact h2
  · intro h1 h2
    have hiat : checkIat (libNow epoch offset) (.int epoch) = .error (.jose .invalidJWTClaim) := by
      unfold checkIat libNow
      have : (Val.int epoch).truthy = true := by simp [Val.truthy, h2]
      simp only [this, if_true]
      rw [if_pos (by omega)]
    unfold claimsInit validateDefaultClaims
    simp only [dget, Dict.get_cons, Dict.get_nil]
    simp [checkAud, checkExp, Val.truthy, hiat, ok_bind, error_bind]
    rfl

/-- One hour west of UTC a token that becomes valid in half an hour is accepted. -/
example : (1700000000 : Int) < 1700001800 ∧ (1700001800 : Int) ≤ 1700000000 - (-3600) := by decide

/-! ## C31 -/

/-- C31: the claims object has the documented types, whatever it was built from and whatever the options; the
claims of every returned token have them too. Integers are distinct from booleans in `Val`. -/
theorem C31_claim_types (now : Int) (v opts : Val) (c : Dict PyStr Val)
    (hok : ∀ d, v = .dict d → Dict.Ok d) (h : claimsInit now v opts = .ok c) : ClaimTypes c := by
  obtain ⟨d, rfl, -, rfl, ht, -⟩ := claimsInit_ok.mp h
  exact claimTypes_fullDict (hok d rfl) ht

theorem C31_decoded (cr : Crypto) (n1 n2 : Int) (tok : Bytes) (key : Jwk) (alg : Option PyStr)
    (val : Bool) (opts : Val) (t : Jwt) (h : Jwt.decode cr n1 n2 tok key alg val opts = .ok t) :
    ClaimTypes t.claims := (decode_claims h).1

/-- C31, converse: nothing else is required of the claims (without options). -/
theorem C31_exact (now : Int) (c : Dict PyStr Val) (hne : c ≠ []) :
    (∃ r, claimsInit now (.dict c) .none = .ok r) ↔ ClaimTypes c ∧ InWindow now c := by
  constructor
  · rintro ⟨r, h⟩
    obtain ⟨c', e, -, -, h1, h2, -⟩ := claimsInit_ok.mp h
    cases e
    exact ⟨h1, h2⟩
  · rintro ⟨h1, h2⟩
    exact ⟨_, claimsInit_ok.mpr ⟨c, rfl, hne, rfl, h1, h2, by intro o ho; cases ho⟩⟩

example : claimsInit 50 (.dict sampleClaims) .none = .ok sampleClaims := by rfl
example : claimsInit 50 (.dict [(py! "exp", .bool true)]) .none = .error (.jose .invalidJWTClaim) := by rfl
example : claimsInit 50 (.dict [(py! "aud", .list [.int 1])]) .none = .error (.jose .invalidJWTClaim) := by rfl

/-! ## C32 -/

/-- The claim is a list one item of which is among the expected values. -/
def ListMatch (v : Val) (o : Dict PyStr Val) : Prop :=
  ∃ vs items, dget o (py! "values") = .list vs ∧ v = .list items ∧
    ∃ i ∈ items, ∃ e ∈ vs, e.pyEq i = true

theorem inList_true {v : Val} {l : List Val} : v.inList l = true ↔ ∃ e ∈ l, e.pyEq v = true := by
  unfold Val.inList; rw [List.any_eq_true]

/-- What one iteration of the loop guarantees if it does not raise. -/
theorem optionStep_met {c : Dict PyStr Val} {k : PyStr} {o : Dict PyStr Val}
    (h : optionStep c k (.dict o) ≠ .raise) :
    OptionMetTruthy (dget c k) o ∧ (optionStep c k (.dict o) = .stop → ListMatch (dget c k) o) := by
  unfold optionStep at h ⊢
  simp only at h ⊢
  split at h
  · exact absurd rfl h
  rename_i he
  split at h
  · exact absurd rfl h
  rename_i hval
  have hess : (dget o (py! "essential")).truthy = true → dget c k ≠ .none := by
    intro ht hn
    apply he
    rw [ht, hn]; rfl
  have hvalue : (dget o (py! "value")).truthy = true →
      (dget c k).pyEq (dget o (py! "value")) = true := by
    intro ht
    cases hp : (dget c k).pyEq (dget o (py! "value")) with
    | true => rfl
    | false => exact absurd (by rw [ht, hp]; rfl) hval
  rw [if_neg he, if_neg hval]
  split at h
  · rename_i hvs
    split at h
    · rename_i vs hv
      have oneOf : vs.any (fun e => (dget c k).pyEq e) = true → OneOf (dget c k) vs := by
        intro ha
        obtain ⟨e, he, hp⟩ := List.any_eq_true.mp ha
        exact Or.inl ⟨e, he, hp⟩
      rw [if_pos hvs]
      split at h
      · rename_i items hitems
        split at h
        · rename_i hany
          obtain ⟨i, hi, hin⟩ := List.any_eq_true.mp hany
          have hin' := inList_true.mp hin
          exact ⟨⟨hess, hvalue, fun _ => ⟨vs, hv, Or.inr ⟨items, hitems, i, hi, hin'⟩⟩⟩,
            fun _ => ⟨vs, items, hv, hitems, i, hi, hin'⟩⟩
        · rename_i hnany
          split at h
          · rename_i hany
            refine ⟨⟨hess, hvalue, fun _ => ⟨vs, hv, oneOf hany⟩⟩, ?_⟩
            rw [if_neg hnany, if_pos hany]
            intro h'; cases h'
          · exact absurd rfl h
      · split at h
        · rename_i hany
          refine ⟨⟨hess, hvalue, fun _ => ⟨vs, hv, oneOf hany⟩⟩, ?_⟩
          rw [if_pos hany]
          intro h'; cases h'
        · exact absurd rfl h
    · exact absurd rfl h
  · rename_i hvs
    refine ⟨⟨hess, hvalue, fun ht => absurd ht hvs⟩, ?_⟩
    rw [if_neg hvs]
    intro h'; cases h'

theorem optionStep_congr {c c' : Dict PyStr Val} (h : ∀ k, dget c k = dget c' k) (k : PyStr) (o : Val) :
    optionStep c k o = optionStep c' k o := by
  unfold optionStep
  rw [h k]

theorem validateClaims_congr {c c' : Dict PyStr Val} (h : ∀ k, dget c k = dget c' k) :
    ∀ o : Dict PyStr Val, validateClaims c o = validateClaims c' o
  | [] => rfl
  | (k, o) :: l => by
    unfold validateClaims
    rw [optionStep_congr h]
    cases optionStep c' k o with
    | raise => rfl
    | stop => rfl
    | next => exact validateClaims_congr h l

/-- Acceptance of options: every option up to the first match inside a list is met, the rest is not looked at. -/
theorem validateClaims_prefix {c : Dict PyStr Val} : ∀ {pre post : Dict PyStr Val} {k : PyStr}
    {o : Dict PyStr Val}, validateClaims c (pre ++ (k, .dict o) :: post) = .ok () →
    (∀ k' o', (k', Val.dict o') ∈ pre → ¬ ListMatch (dget c k') o') → OptionMetTruthy (dget c k) o
  | [], post, k, o, h, _ => by
    simp only [List.nil_append, validateClaims] at h
    apply (optionStep_met ?_).1
    intro hr
    rw [hr] at h
    cases h
  | (k', o') :: pre, post, k, o, h, hpre => by
    simp only [List.cons_append, validateClaims] at h
    cases hs : optionStep c k' o' with
    | raise => rw [hs] at h; cases h
    | stop =>
      exfalso
      cases o' with
      | dict d =>
        exact hpre k' d (by simp) ((optionStep_met (by rw [hs]; simp)).2 hs)
      | _ => simp [optionStep] at hs
    | next =>
      rw [hs] at h
      exact validateClaims_prefix h (fun k'' o'' hm => hpre k'' o'' (List.mem_cons_of_mem _ hm))

/-- C32, what holds: if `decode` with validation returns, then every option that no list match precedes is
satisfied — for expected values that are not falsy. In the full property the two conditions are absent, see
`C32_options_refuted`. -/
theorem C32_options_partial (cr : Crypto) (n1 n2 : Int) (tok : Bytes) (key : Jwk) (alg : Option PyStr)
    (pre post : Dict PyStr Val) (k : PyStr) (o : Dict PyStr Val) (t : Jwt)
    (h : Jwt.decode cr n1 n2 tok key alg true (.dict (pre ++ (k, .dict o) :: post)) = .ok t)
    (hpre : ∀ k' o', (k', Val.dict o') ∈ pre → ¬ ListMatch (dget t.claims k') o') :
    OptionMetTruthy (dget t.claims k) o := by
  obtain ⟨-, -, -, ho⟩ := decode_claims h
  obtain ⟨c, hc, hval⟩ := ho rfl _ rfl
  rw [← hc k]
  refine validateClaims_prefix hval ?_
  intro k' o' hm
  rw [hc k']
  exact hpre k' o' hm

/-- C32 for tokens without list-valued claims among the checked ones: all options are enforced, in every order. -/
theorem C32_no_lists_partial (cr : Crypto) (n1 n2 : Int) (tok : Bytes) (key : Jwk) (alg : Option PyStr)
    (opts : Dict PyStr Val) (t : Jwt)
    (h : Jwt.decode cr n1 n2 tok key alg true (.dict opts) = .ok t)
    (hl : ∀ k o items, (k, o) ∈ opts → dget t.claims k ≠ .list items)
    (k : PyStr) (o : Dict PyStr Val) (hk : (k, Val.dict o) ∈ opts) : OptionMetTruthy (dget t.claims k) o := by
  obtain ⟨pre, post, rfl⟩ := List.append_of_mem hk
  refine C32_options_partial cr n1 n2 tok key alg pre post k o t h ?_
  rintro k' o' hm ⟨vs, items, -, hitems, -⟩
  exact hl k' (.dict o') items (by simp [hm]) hitems

/-- The claims and options of the first counterexample: the audience matches, the issuer is wrong. -/
def evilClaims : Dict PyStr Val := [(py! "aud", .list [.str (py! "a")]), (py! "iss", .str (py! "evil"))]
def evilOptions : Dict PyStr Val :=
  [(py! "aud", .dict [(py! "values", .list [.str (py! "a")])]),
    (py! "iss", .dict [(py! "essential", .bool true), (py! "value", .str (py! "good"))]),
    (py! "sub", .dict [(py! "essential", .bool true)])]

def evilJwt : Jwt :=
  ⟨hsHeader, evilClaims, ⟨hsHeader, by! "{\"aud\": [\"a\"], \"iss\": \"evil\"}"⟩⟩

/-- Claims of the second counterexample: the expected value is `false`, the claim is `true`. -/
def adminClaims : Dict PyStr Val := [(py! "admin", .bool true)]
def adminOptions : Dict PyStr Val := [(py! "admin", .dict [(py! "value", .bool false)])]
def adminJwt : Jwt := ⟨hsHeader, adminClaims, ⟨hsHeader, by! "{\"admin\": true}"⟩⟩

/-- C32 is false: (1) after a match in a list-valued claim the remaining options are skipped — a token with the
wrong issuer and without the essential subject is accepted; (2) a falsy expected value is not enforced. Both at
every time, with a correctly signed token and validation on. -/
theorem C32_options_refuted :
    (∃ tok, evilJwt.encode toyCrypto octKey 7 = .ok tok ∧
      (∀ n1 n2, Jwt.decodeStr toyCrypto n1 n2 tok octKey (some (py! "HS256")) true (.dict evilOptions) = .ok evilJwt) ∧
      ¬ OptionMet (dget evilJwt.claims (py! "iss"))
        [(py! "essential", .bool true), (py! "value", .str (py! "good"))] ∧
      ¬ OptionMet (dget evilJwt.claims (py! "sub")) [(py! "essential", .bool true)]) ∧
    (∃ tok, adminJwt.encode toyCrypto octKey 7 = .ok tok ∧
      (∀ n1 n2, Jwt.decodeStr toyCrypto n1 n2 tok octKey (some (py! "HS256")) true (.dict adminOptions) = .ok adminJwt) ∧
      ¬ OptionMet (dget adminJwt.claims (py! "admin")) [(py! "value", .bool false)]) := by
  refine ⟨⟨_, rfl, ?_, ?_, ?_⟩, ⟨_, rfl, ?_, ?_⟩⟩
  · intro n1 n2
    refine jwt_roundtrip toyCrypto toyFloat_laws 50 evilClaims (by unfold Dict.Ok; decide)
      (.dict hsHeader.data) evilJwt rfl (by simp [evilJwt, evilClaims]) ?_ ?_ octKey octKey 7 _ rfl
      (C19_oct_pair _ _) (fun _ _ => rfl) _ (Or.inr ⟨_, rfl, rfl⟩) n1 n2 ?_ ?_ _ ?_
    · simp [evilJwt, evilClaims, Val.Wf, Val.WfD, Val.WfL]
    · simp [evilJwt, hsHeader, Val.Wf, Val.WfD]
    · constructor <;> intro i hi <;> cases hi
    · constructor <;> intro i hi <;> cases hi
    · rintro o ⟨⟩; rfl
  · intro h
    have := h.value (by simp [dget, Dict.get_cons])
    simp [evilJwt, evilClaims, dget, Dict.get_cons, Val.pyEq] at this
  · intro h
    exact h.essential rfl rfl
  · intro n1 n2
    refine jwt_roundtrip toyCrypto toyFloat_laws 50 adminClaims (by unfold Dict.Ok; decide)
      (.dict hsHeader.data) adminJwt rfl (by simp [adminJwt, adminClaims]) ?_ ?_ octKey octKey 7 _ rfl
      (C19_oct_pair _ _) (fun _ _ => rfl) _ (Or.inr ⟨_, rfl, rfl⟩) n1 n2 ?_ ?_ _ ?_
    · simp [adminJwt, adminClaims, Val.Wf, Val.WfD]
    · simp [adminJwt, hsHeader, Val.Wf, Val.WfD]
    · constructor <;> intro i hi <;> cases hi
    · constructor <;> intro i hi <;> cases hi
    · rintro o ⟨⟩; rfl
  · intro h
    have := h.value (by simp [dget, Dict.get_cons])
    simp [adminJwt, adminClaims, dget, Dict.get_cons, Val.pyEq] at this

/-- The same options in another order refuse the token: the order of the options decides. -/
example : validateClaims evilClaims evilOptions.reverse = .error (.jose .invalidJWTClaim) := by rfl

/-! ## C33 -/

/-- C33: without validation the result depends neither on the key nor on the options nor on the signature segment. -/
theorem C33_no_validation (cr : Crypto) (n1 n2 : Int) (hb pb sb sb' : Bytes) (hs : (46 : Byte) ∉ sb)
    (hs' : (46 : Byte) ∉ sb') (key key' : Jwk) (alg : Option PyStr) (opts opts' : Val) :
    Jwt.decode cr n1 n2 (hb ++ 46 :: pb ++ 46 :: sb) key alg false opts =
      Jwt.decode cr n1 n2 (hb ++ 46 :: pb ++ 46 :: sb') key' alg false opts' := by
  have hd : Jws.deserialize cr (hb ++ 46 :: pb ++ 46 :: sb) key alg false =
      Jws.deserialize cr (hb ++ 46 :: pb ++ 46 :: sb') key' alg false := by
    unfold Jws.deserialize
    rw [splitOn_append_sep 46 (hb ++ 46 :: pb) sb, splitOn_append_sep 46 (hb ++ 46 :: pb) sb',
      splitOn_not_mem hs, splitOn_not_mem hs']
    match splitOn 46 (hb ++ 46 :: pb) with
    | [] => rfl
    | [_] => rfl
    | [_, _] => rfl
    | [_, _, _] => rfl
    | _ :: _ :: _ :: _ :: _ => rfl
  unfold Jwt.decode
  rw [hd]
  rfl

/-- C33: the default claim checks are made without validation too. -/
theorem C33_default_checks (cr : Crypto) (n1 n2 : Int) (tok : Bytes) (key : Jwk) (alg : Option PyStr) (opts : Val)
    (t : Jwt) (h : Jwt.decode cr n1 n2 tok key alg false opts = .ok t) :
    ClaimTypes t.claims ∧ InWindow n1 t.claims ∧ InWindow n2 t.claims :=
  let ⟨h1, h2, h3, _⟩ := decode_claims h
  ⟨h1, h2, h3⟩

/-- C33: whatever is accepted with validation and some options is accepted without validation, with the same result. -/
theorem C33_validation_only_restricts (cr : Crypto) (n1 n2 : Int) (tok : Bytes) (key : Jwk)
    (alg : Option PyStr) (opts : Val) (t : Jwt)
    (h : Jwt.decode cr n1 n2 tok key alg true opts = .ok t) :
    Jwt.decode cr n1 n2 tok key alg false opts = .ok t := by
  unfold Jwt.decode at h ⊢
  obtain ⟨jws, hd, h⟩ := bind_ok_iff.mp h
  obtain ⟨v, hl, h⟩ := bind_ok_iff.mp h
  obtain ⟨c, hc, h⟩ := bind_ok_iff.mp h
  have hd' : Jws.deserialize cr tok key alg false = .ok jws := by
    obtain ⟨hb, pb, sb, raw, v, h1, h2, h3, h4, h5, -, h6⟩ := deserialize_ok.mp hd
    exact deserialize_ok.mpr ⟨hb, pb, sb, raw, v, h1, h2, h3, h4, h5, (by intro h; cases h), h6⟩
  have hc' : claimsInit n1 v .none = .ok c := by
    obtain ⟨d, h1, h2, h3, h4, h5, -⟩ := claimsInit_ok.mp hc
    exact claimsInit_ok.mpr ⟨d, h1, h2, h3, h4, h5, by intro o ho; cases ho⟩
  rw [hd', ok_bind, hl, ok_bind]
  simp only [Bool.false_eq_true, if_false]
  rw [hc', ok_bind]
  exact h

/-- The sample token with a broken signature is accepted without validation and refused with it. -/
example : ∃ hb pb sb : Bytes, (46 : Byte) ∉ sb ∧
    sampleJwt.jws.serialize toyCrypto octKey 7 = .ok (hb ++ 46 :: pb ++ 46 :: sb) ∧
    Jwt.decode toyCrypto 50 50 (hb ++ 46 :: pb ++ 46 :: by! "x") ecKey none false .none = .ok sampleJwt := by
  have henc : ∃ b, sampleJwt.jws.serialize toyCrypto octKey 7 = .ok b := ⟨_, rfl⟩
  obtain ⟨b, hb⟩ := henc
  have hdec : Jwt.decode toyCrypto 50 50 b octKey none true .none = .ok sampleJwt := by
    have htok : sampleJwt.encode toyCrypto octKey 7 = .ok (toStringB b) := by
      unfold Jwt.encode; rw [hb]
    have := jwt_roundtrip toyCrypto toyFloat_laws 50 sampleClaims (by unfold Dict.Ok; decide)
      (.dict hsHeader.data) sampleJwt rfl (by simp [sampleJwt, sampleClaims])
      (by simp [sampleJwt, sampleClaims, Val.Wf, Val.WfD])
      (by simp [sampleJwt, hsHeader, Val.Wf, Val.WfD]) octKey octKey 7 _ htok
      (C19_oct_pair _ _) (fun _ _ => rfl) none (Or.inl rfl) 50 50
      (by constructor
          · intro i hi _; cases hi; decide
          · intro i hi _; cases hi
          · intro i hi _; cases hi; decide)
      (by constructor
          · intro i hi _; cases hi; decide
          · intro i hi _; cases hi
          · intro i hi _; cases hi; decide) .none
      (by intro o ho; cases ho)
    unfold Jwt.decodeStr at this
    rwa [toStringB_ascii (token_ascii hb), utf8Encode_asciiStr (token_ascii hb), ok_bind] at this
  obtain ⟨jws, c, hd, -⟩ := decode_ok hdec
  obtain ⟨h, p, s, raw, v, hsplit, -⟩ := deserialize_ok.mp hd
  obtain ⟨e, -, -, hs⟩ := split_token_inv hsplit
  refine ⟨h, p, s, hs, e ▸ hb, ?_⟩
  rw [C33_no_validation toyCrypto 50 50 h p _ s (by decide) hs ecKey octKey none .none .none, ← e]
  exact C33_validation_only_restricts _ _ _ _ _ _ _ _ hdec

/-! ## C34 -/

/-- C34: an accepted token — with or without validation — has exactly three segments; the header segment decodes to
bytes that are valid UTF-8 for a text that is a JSON object with the returned header as its non-null members, and the same holds for
the claims. -/
theorem C34_only_utf8_objects (cr : Crypto) (n1 n2 : Int) (tok : Bytes) (key : Jwk) (alg : Option PyStr)
    (val : Bool) (opts : Val) (t : Jwt) (h : Jwt.decode cr n1 n2 tok key alg val opts = .ok t) :
    ∃ hb pb sb, tok = hb ++ 46 :: pb ++ 46 :: sb ∧
      (∃ raw s d, b64urlDecode hb = .ok raw ∧ utf8Encode s = .ok raw ∧
        jsonParse cr.fe s = .ok (.dict d) ∧ ∀ k, dget t.header.data k = dget d k) ∧
      (∃ raw s d, b64urlDecode pb = .ok raw ∧ utf8Encode s = .ok raw ∧
        jsonParse cr.fe s = .ok (.dict d) ∧ ∀ k, dget t.claims k = dget d k) := by
  obtain ⟨jws, c, hd, hl, -, hc, -, -, -, -, hhd, -⟩ := decode_ok h
  obtain ⟨hb, pb, sb, raw, v, hsplit, hraw, hv, hh, -, -, hp⟩ := deserialize_ok.mp hd
  obtain ⟨e, -, -, -⟩ := split_token_inv hsplit
  refine ⟨hb, pb, sb, e, ?_, ?_⟩
  · obtain ⟨d, rfl, hdata, -⟩ := headerInit_ok.mp hh
    obtain ⟨s, hs, hj⟩ := jsonLoads_dict hv
    refine ⟨raw, s, d, hraw, hs, hj, ?_⟩
    intro k
    rw [hhd, hdata]
    exact dget_fullDict (jsonLoads_ok_dict hv) k
  · obtain ⟨s, hs, hj⟩ := jsonLoads_dict hl
    refine ⟨_, s, c, hp, hs, hj, ?_⟩
    intro k
    rw [hc]
    exact dget_fullDict (jsonLoads_ok_dict hl) k

/-- Bytes that are not UTF-8 are indeed turned into text by `to_string`. -/
example : utf8Decode [255] = none ∧ toStringB [255] = py! "_w" := by decide +kernel

end Psion.Props
