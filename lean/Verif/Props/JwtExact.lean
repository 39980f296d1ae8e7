import Verif.Props.JwsExact
import Verif.Props.Jwt

/-!
# Property C80: exactly which claims are signed and which tokens are accepted
-/

namespace Psion.Props

open Psion Psion.Spec

/-- What `decode` checks of the options: every option that no match inside a list precedes is met. -/
def OptionsMet (c : Dict PyStr Val) (options : Dict PyStr Val) : Prop :=
  ∀ pre k o post, options = pre ++ (k, .dict o) :: post →
    (∀ k' o', (k', Val.dict o') ∈ pre → ¬ ListMatch (dget c k') o') → OptionMetTruthy (dget c k) o

/-- An option that is met does not raise. -/
theorem optionStep_of_met {c : Dict PyStr Val} {k : PyStr} {o : Dict PyStr Val} (h : OptionMetTruthy (dget c k) o) :
    (ListMatch (dget c k) o → optionStep c k (.dict o) = .stop) ∧
      (¬ ListMatch (dget c k) o → optionStep c k (.dict o) = .next) := by
  have he : ¬ (((dget o (py! "essential")).truthy && (dget c k).isNone) = true) := by
    rw [Bool.and_eq_true, isNone_iff]
    exact fun hx => h.essential hx.1 hx.2
  have hv : ¬ (((dget o (py! "value")).truthy && !(dget c k).pyEq (dget o (py! "value"))) = true) := by
    rw [Bool.and_eq_true]
    rintro ⟨h1, h2⟩
    rw [h.value h1] at h2
    cases h2
  have hstop : ∀ vs items : List Val, (items.any (fun i => i.inList vs) = true ↔ ∃ i ∈ items, ∃ e ∈ vs, e.pyEq i = true) := by
    intro vs items
    rw [List.any_eq_true]
    constructor
    · rintro ⟨i, hi, hin⟩; exact ⟨i, hi, inList_true.mp hin⟩
    · rintro ⟨i, hi, hin⟩; exact ⟨i, hi, inList_true.mpr hin⟩
  unfold optionStep
  dsimp only
  rw [if_neg he, if_neg hv]
  constructor
  · rintro ⟨vs, items, h1, h2, i, hi, e, he, hp⟩
    have ht : (dget o (py! "values")).truthy = true := by
      rw [h1]
      cases vs with
      | nil => simp at he
      | cons => rfl
    rw [if_pos ht, h1, h2]
    dsimp only
    rw [if_pos ((hstop vs items).mpr ⟨i, hi, e, he, hp⟩)]
  · intro hm
    by_cases ht : (dget o (py! "values")).truthy = true
    · rw [if_pos ht]
      obtain ⟨vs, hvs, hone⟩ := h.values ht
      rw [hvs]
      rcases hone with ⟨e, he, hp⟩ | ⟨items, h2, i, hi, e, he, hp⟩
      · have hany : vs.any (fun e => (dget c k).pyEq e) = true := List.any_eq_true.mpr ⟨e, he, hp⟩
        cases hc : dget c k with
        | list items =>
          dsimp only
          rw [hc] at hany
          rw [if_neg, if_pos hany]
          intro hx
          obtain ⟨i, hi, e, he, hp⟩ := (hstop vs items).mp hx
          exact hm ⟨vs, items, hvs, hc, i, hi, e, he, hp⟩
        | _ =>
          dsimp only
          rw [hc] at hany
          rw [if_pos hany]
      · exact absurd ⟨vs, items, hvs, h2, i, hi, e, he, hp⟩ hm
    · rw [if_neg ht]

/-- C80, options: the check of the options passes exactly if every option is met that no match inside a list precedes. -/
theorem C80_options (c : Dict PyStr Val) (options : Dict PyStr Val) :
    validateClaims c options = .ok () ↔ OptionsMet c options := by
  constructor
  · rintro h pre k o post rfl hpre
    exact validateClaims_prefix h hpre
  · intro h
    induction options with
    | nil => rfl
    | cons p options ih =>
      obtain ⟨k, o⟩ := p
      have rest : (∀ o', o = .dict o' → ¬ ListMatch (dget c k) o') → validateClaims c options = .ok () := by
        intro hn
        refine ih ?_
        rintro pre k' o' post rfl hpre
        refine h ((k, o) :: pre) k' o' post rfl ?_
        intro k'' o'' hm
        rcases List.mem_cons.mp hm with hm | hm
        · cases hm
          exact hn o'' rfl
        · exact hpre k'' o'' hm
      unfold validateClaims
      cases o with
      | dict o =>
        obtain ⟨h1, h2⟩ := optionStep_of_met (h [] k o options rfl (by simp))
        by_cases hm : ListMatch (dget c k) o
        · rw [h1 hm]
        · rw [h2 hm]
          refine rest ?_
          rintro _ ⟨⟩
          exact hm
      | _ => exact rest (by rintro _ ⟨⟩)

/-- C80, issuing: `JsonWebToken(claims, header)` and `encode` succeed exactly for a valid header, for claims of the right types
that are valid at this time, with texts that can be encoded, if the members of the key permit its use and it makes a signature with
the algorithm of the header (or this is `none`). -/
theorem C80_issue (cr : Crypto) (now : Int) (c hd : Dict PyStr Val) (a : PyStr) (ha : Dict.get hd (py! "alg") = some (.str a))
    (v : Val) (key : Jwk) (hk : Jwk.init cr v = .ok key) (seed : Nat) :
    (∃ t tok, Jwt.init cr now (.dict c) (.dict hd) = .ok t ∧ t.encode cr key seed = .ok tok) ↔
      c ≠ [] ∧ ClaimTypes c ∧ InWindow now c ∧ HeaderOk hd ∧ Suits key.data (fullDict hd) ∧
      ∃ hb pb, utf8Encode (jsonDumps cr.fe (.dict (fullDict hd))) = .ok hb ∧
        utf8Encode (jsonDumps cr.fe (.dict (fullDict c))) = .ok pb ∧
        (a = py! "none" ∨ ∃ sig, Signs cr seed a key.mat (b64urlEncode hb ++ by! "." ++ b64urlEncode pb) sig) := by
  constructor
  · rintro ⟨t, tok, h1, h2⟩
    obtain ⟨g1, g2, p, g3, g4⟩ := jwtInit_ok.mp h1
    obtain ⟨c', e, hne, hc, ht, hw, -⟩ := claimsInit_ok.mp g2
    cases e
    obtain ⟨hd', e, hfull, hget, -⟩ := headerInit_ok.mp g1
    cases e
    obtain ⟨hd', e, hok⟩ := (C26_header_validation (.dict hd)).mp ⟨_, g1⟩
    cases e
    obtain ⟨b, hb, -⟩ := encode_bytes h2
    rw [g4] at hb
    have hal : dget t.header.data (py! "alg") = .str a := by
      rw [hfull]
      exact dget_of_get (get_fullDict_some ha (by simp))
    obtain ⟨hs, hb, msg, sig, k1, rfl, -, k3⟩ := (C79_serialize cr (.dict hd) t.header g1 a hal v key hk p seed b).mp hb
    rw [hfull] at hs k1
    rw [hc] at g3
    refine ⟨hne, ht, hw, hok, hs, hb, p, k1, g3, ?_⟩
    rcases k3 with ⟨k3, -⟩ | k3
    · exact Or.inl k3
    · exact Or.inr ⟨sig, k3⟩
  · rintro ⟨hne, ht, hw, hok, hs, hb, pb, k1, k2, k3⟩
    obtain ⟨h, g1⟩ := (C26_header_validation (.dict hd)).mpr ⟨hd, rfl, hok⟩
    obtain ⟨hd', e, hfull, hget, -⟩ := headerInit_ok.mp g1
    cases e
    have hal : dget h.data (py! "alg") = .str a := by
      rw [hfull]
      exact dget_of_get (get_fullDict_some ha (by simp))
    have hsig : ∃ sig, a = py! "none" ∧ sig = [] ∨ Signs cr seed a key.mat (b64urlEncode hb ++ by! "." ++ b64urlEncode pb) sig := by
      rcases k3 with k3 | ⟨sig, k3⟩
      · exact ⟨[], Or.inl ⟨k3, rfl⟩⟩
      · exact ⟨sig, Or.inr k3⟩
    obtain ⟨sig, hsig⟩ := hsig
    have hser := (C79_serialize cr (.dict hd) h g1 a hal v key hk pb seed _).mpr
      ⟨by rw [hfull]; exact hs, hb, _, sig, by rw [hfull]; exact k1, rfl, rfl, hsig⟩
    refine ⟨⟨h, fullDict c, ⟨h, pb⟩⟩,
      toStringB (b64urlEncode hb ++ by! "." ++ b64urlEncode pb ++ by! "." ++ b64urlEncode sig), jwtInit_ok.mpr ⟨g1, claimsInit_ok.mpr ⟨c, rfl, hne, rfl, ht, hw, ?_⟩, pb, k2,
      rfl⟩, ?_⟩
    · rintro o ⟨⟩
    · unfold Jwt.encode
      dsimp only
      rw [hser]

/-- C80, acceptance: with validation on, `decode` returns a token with this header and these claims exactly if the signature layer
accepts the token with this header (see C79) and a payload that is the JSON text of claims (some not `null`) of the right types,
valid at the time, which can be encoded again and meet the options (as far as these are checked, see `C80_options`). -/
theorem C80_decode (cr : Crypto) (n1 n2 : Int) (tok : Bytes) (key : Jwk) (alg : Option PyStr) (opts : Val)
    (header claims : Dict PyStr Val) :
    (∃ t, Jwt.decode cr n1 n2 tok key alg true opts = .ok t ∧ t.header.data = header ∧ t.claims = claims) ↔
      ∃ j c, Jws.deserialize cr tok key alg true = .ok j ∧ j.header.data = header ∧
        jsonLoads cr.fe j.payload = .ok (.dict c) ∧ claims = fullDict c ∧ claims ≠ [] ∧ ClaimTypes c ∧ InWindow n1 c ∧
        InWindow n2 c ∧ Encodable (jsonDumps cr.fe (.dict claims)) ∧ ∀ o, opts = .dict o → OptionsMet c o := by
  constructor
  · rintro ⟨t, h, rfl, rfl⟩
    have h' := h
    unfold Jwt.decode at h'
    simp only [bind_ok_iff] at h'
    obtain ⟨j, h1, v, h2, c', h3, h4⟩ := h'
    obtain ⟨c, rfl, hne, rfl, h5, h6, h7⟩ := claimsInit_ok.mp h3
    obtain ⟨g1, g2, p, g3, -⟩ := jwtInit_ok.mp h4
    obtain ⟨c2, e, hne', g4, g5, g6, -⟩ := claimsInit_ok.mp g2
    cases e
    rw [fullDict_idem] at g4
    obtain ⟨hb, pb, sb, raw, w, -, -, -, hi, -⟩ := deserialize_ok.mp h1
    rw [headerInit_idem hi] at g1
    have hok := jsonLoads_ok_dict h2
    refine ⟨j, c, h1, congrArg _ (Except.ok.inj g1), h2, g4, by rw [g4]; exact hne', h5, h6, (inWindow_fullDict hok).mp g6,
      utf8Encode_encodable g3, ?_⟩
    rintro o rfl
    exact (C80_options c o).mp (h7 o rfl)
  · rintro ⟨j, c, h1, rfl, h2, rfl, hne, h3, h4, h5, h6, h7⟩
    have hok := jsonLoads_ok_dict h2
    obtain ⟨hb, pb, sb, raw, w, -, -, -, hi, -⟩ := deserialize_ok.mp h1
    obtain ⟨p, hp⟩ := utf8Encode_ok h6
    refine ⟨⟨j.header, fullDict c, ⟨j.header, p⟩⟩, ?_, rfl, rfl⟩
    unfold Jwt.decode
    simp only [bind_ok_iff]
    refine ⟨j, h1, .dict c, h2, fullDict c, claimsInit_ok.mpr ⟨c, rfl, ?_, rfl, h3, h4, ?_⟩,
      jwtInit_ok.mpr ⟨headerInit_idem hi, claimsInit_ok.mpr ⟨fullDict c, rfl, hne, (fullDict_idem c).symm,
        claimTypes_fullDict hok h3, (inWindow_fullDict hok).mpr h5, ?_⟩, p, hp, rfl⟩⟩
    · rintro rfl
      exact hne rfl
    · intro o ho
      exact (C80_options c o).mpr (h7 o ho)
    · rintro o ⟨⟩

/-! ### Concrete cases -/

/-- C80, acceptance of texts: as `C80_decode`, for the bytes of the text. -/
theorem C80_decode_text (cr : Crypto) (n1 n2 : Int) (text : PyStr) (key : Jwk) (alg : Option PyStr) (opts : Val)
    (header claims : Dict PyStr Val) :
    (∃ t, Jwt.decodeStr cr n1 n2 text key alg true opts = .ok t ∧ t.header.data = header ∧ t.claims = claims) ↔
      ∃ tok j c, utf8Encode text = .ok tok ∧ Jws.deserialize cr tok key alg true = .ok j ∧ j.header.data = header ∧
        jsonLoads cr.fe j.payload = .ok (.dict c) ∧ claims = fullDict c ∧ claims ≠ [] ∧ ClaimTypes c ∧ InWindow n1 c ∧
        InWindow n2 c ∧ Encodable (jsonDumps cr.fe (.dict claims)) ∧ ∀ o, opts = .dict o → OptionsMet c o := by
  unfold Jwt.decodeStr
  simp only [bind_ok_iff]
  constructor
  · rintro ⟨t, ⟨tok, h1, h2⟩, h3⟩
    obtain ⟨j, c, h⟩ := (C80_decode cr n1 n2 tok key alg opts header claims).mp ⟨t, h2, h3⟩
    exact ⟨tok, j, c, h1, h⟩
  · rintro ⟨tok, j, c, h1, h⟩
    obtain ⟨t, h2, h3⟩ := (C80_decode cr n1 n2 tok key alg opts header claims).mpr ⟨j, c, h⟩
    exact ⟨t, ⟨tok, h1, h2⟩, h3⟩

/-- A token for the key of C79 is issued at the time 50. -/
example : ∃ t tok, Jwt.init toyCrypto 50 (.dict sampleClaims) (.dict boundHeader.data) = .ok t ∧
    t.encode toyCrypto boundKey 0 = .ok tok := by
  obtain ⟨h1, h2⟩ := (C31_exact 50 sampleClaims (by simp [sampleClaims])).mp ⟨_, rfl⟩
  obtain ⟨_, e, hok⟩ := (C26_header_validation (.dict boundHeader.data)).mp ⟨boundHeader, rfl⟩
  cases e
  exact (C80_issue toyCrypto 50 sampleClaims boundHeader.data (py! "HS256") rfl (.dict boundKey.data) boundKey rfl 0).mpr
    ⟨by simp [sampleClaims], h1, h2, hok, boundKey_suits, _, _, rfl, rfl, Or.inr ⟨_, .hs256 _ _⟩⟩

/-- A wrong issuer does not meet the options, but with a matching audience before it everything is accepted. -/
example : ¬ OptionsMet [(py! "iss", .str (py! "evil"))] [(py! "iss", .dict [(py! "value", .str (py! "good"))])] ∧
    OptionsMet evilClaims evilOptions := by
  constructor
  · rw [← C80_options]
    intro h
    cases h
  · rw [← C80_options]
    rfl

end Psion.Props
