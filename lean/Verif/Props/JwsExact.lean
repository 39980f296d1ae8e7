import Verif.Jose.SignLemmas
import Verif.Props.Jws

/-!
# Property C79: exactly the suitable keys sign, and exactly the genuine tokens are accepted
-/

namespace Psion.Props

open Psion Psion.Spec

/-- C79, signing: a token is produced exactly if the members of the key permit its use under the header, the text of the header
can be encoded and the key makes a signature with the algorithm of the header (or the algorithm is `none`). The token consists of
the header, the payload and the signature, each in base64url, joined by dots. -/
theorem C79_serialize (cr : Crypto) (hv : Val) (h : JwsHeader) (hh : JwsHeader.init hv = .ok h) (a : PyStr)
    (ha : dget h.data (py! "alg") = .str a) (v : Val) (key : Jwk) (hk : Jwk.init cr v = .ok key) (payload : Bytes) (seed : Nat)
    (tok : Bytes) :
    Jws.serialize cr ⟨h, payload⟩ key seed = .ok tok ↔ Suits key.data h.data ∧
      ∃ hb msg sig, utf8Encode (jsonDumps cr.fe (.dict h.data)) = .ok hb ∧
        msg = b64urlEncode hb ++ by! "." ++ b64urlEncode payload ∧ tok = msg ++ by! "." ++ b64urlEncode sig ∧
        (a = py! "none" ∧ sig = [] ∨ Signs cr seed a key.mat msg sig) := by
  have hname : h.alg.name = a := by
    rw [dget_of_get (header_alg hh)] at ha
    exact Val.str.inj ha
  subst hname
  have hi := keyInv_of_init hk
  have key : ∀ s msg, Suits key.data h.data → (h.alg.sign cr msg key seed = .ok s ↔ ∃ sig, s = b64urlEncode sig ∧
      (h.alg.name = py! "none" ∧ sig = [] ∨ Signs cr seed h.alg.name key.mat msg sig)) := by
    intro s msg hs
    by_cases hn : h.alg = .none
    · rw [hn]
      constructor
      · intro hx
        cases hx
        exact ⟨[], rfl, Or.inl ⟨rfl, rfl⟩⟩
      · rintro ⟨sig, rfl, ⟨-, rfl⟩ | hx⟩
        · rfl
        · cases algFits_of_signs hx
    · have halg := hs.alg
      rw [ha] at halg
      rw [sign_iff hi hn halg]
      constructor
      · rintro ⟨sig, h1, h2⟩
        exact ⟨sig, h2, Or.inr h1⟩
      · rintro ⟨sig, h2, ⟨h1, -⟩ | h1⟩
        · exact absurd (JwsAlg.name_inj (b := .none) h1) hn
        · exact ⟨sig, h1, h2⟩
  rw [serialize_ok]
  constructor
  · rintro ⟨m, s, h1, h2, h3, rfl⟩
    have hs := (validateKey_suits hh).mp h1
    obtain ⟨sig, rfl, hsig⟩ := (key s m hs).mp h3
    unfold Jws.message at h2
    split at h2
    · cases h2
    rename_i hb hhb
    cases h2
    exact ⟨hs, hb, _, sig, hhb, rfl, by simp, by simpa using hsig⟩
  · rintro ⟨hs, hb, msg, sig, h1, rfl, rfl, h4⟩
    refine ⟨_, b64urlEncode sig, (validateKey_suits hh).mpr hs, ?_, (key _ _ hs).mpr ⟨sig, rfl, h4⟩, by simp⟩
    unfold Jws.message
    rw [h1]
    simp

/-- C79, acceptance: with validation on, a token is accepted, with a header and a payload, exactly if it consists of three parts
joined by dots, the first is the base64url text of a JSON object that is a valid header, the second is the base64url text of the
payload, the algorithm is the expected one, the members of the key permit its use under this header, and the third is the
base64url text of a valid signature of the first two as they were transmitted (or the algorithm is `none`). -/
theorem C79_deserialize (cr : Crypto) (v : Val) (key : Jwk) (hk : Jwk.init cr v = .ok key) (tok : Bytes) (alg : Option PyStr)
    (header : Dict PyStr Val) (payload : Bytes) :
    (∃ j, Jws.deserialize cr tok key alg true = .ok j ∧ j.header.data = header ∧ j.payload = payload) ↔
      ∃ hb pb sb raw hd a, tok = hb ++ by! "." ++ pb ++ by! "." ++ sb ∧ 46 ∉ hb ∧ 46 ∉ pb ∧ 46 ∉ sb ∧
        b64urlDecode hb = .ok raw ∧ jsonLoads cr.fe raw = .ok (.dict hd) ∧ HeaderOk hd ∧ header = fullDict hd ∧
        Dict.get hd (py! "alg") = some (.str a) ∧ (alg = none ∨ alg = some [] ∨ alg = some a) ∧ Suits key.data header ∧
        (a = py! "none" ∨ ∃ sig, b64urlDecode sb = .ok sig ∧ SigOk cr a key.mat (hb ++ by! "." ++ pb) sig) ∧
        b64urlDecode pb = .ok payload := by
  have hi := keyInv_of_init hk
  have halg : ∀ {w h}, JwsHeader.init w = .ok h →
      (algMatches alg h = true ↔ alg = none ∨ alg = some [] ∨ alg = some h.alg.name) := by
    intro w h hh
    have hd := dget_of_get (header_alg hh)
    match alg with
    | none => simp [algMatches]
    | some [] => simp [algMatches]
    | some (c :: a) =>
      simp only [algMatches, hd, reduceCtorEq, Option.some.injEq, false_or]
      rw [pyEq_str, Val.str.injEq]
      exact ⟨Eq.symm, Eq.symm⟩
  have hver : ∀ {w h sb msg}, JwsHeader.init w = .ok h → Suits key.data h.data → (h.alg.verify cr sb msg key = .ok () ↔
      h.alg.name = py! "none" ∨ ∃ sig, b64urlDecode sb = .ok sig ∧ SigOk cr h.alg.name key.mat msg sig) := by
    intro w h sb msg hh hs
    by_cases hn : h.alg = .none
    · rw [hn]
      exact ⟨fun _ => Or.inl rfl, fun _ => rfl⟩
    · have ha := hs.alg
      rw [dget_of_get (header_alg hh)] at ha
      rw [verify_iff hi hn ha]
      constructor
      · exact Or.inr
      · rintro (h1 | h1)
        · exact absurd (JwsAlg.name_inj (b := .none) h1) hn
        · exact h1
  constructor
  · rintro ⟨j, h, rfl, rfl⟩
    obtain ⟨hb, pb, sb, raw, w, hsplit, h1, h2, h3, h4, h5, h6⟩ := deserialize_ok.mp h
    obtain ⟨h5, h7⟩ := h5 rfl
    obtain ⟨rfl, d1, d2, d3⟩ := split_token_inv hsplit
    obtain ⟨hd, rfl, hfull, hget, -⟩ := headerInit_ok.mp h3
    obtain ⟨hd', e, hok⟩ := (C26_header_validation (.dict hd)).mp ⟨_, h3⟩
    cases e
    have hs := (validateKey_suits h3).mp h5
    exact ⟨hb, pb, sb, raw, hd, j.header.alg.name, by simp, d1, d2, d3, h1, h2, hok, hfull, hget, (halg h3).mp h4, hs,
      by simpa using (hver h3 hs).mp h7, h6⟩
  · rintro ⟨hb, pb, sb, raw, hd, a, rfl, d1, d2, d3, h1, h2, hok, rfl, hget, hal, hs, hsig, hp⟩
    obtain ⟨h, h3⟩ := (C26_header_validation (.dict hd)).mpr ⟨hd, rfl, hok⟩
    obtain ⟨hd', e, hfull, hget', -⟩ := headerInit_ok.mp h3
    cases e
    rw [hget] at hget'
    have hname : a = h.alg.name := Val.str.inj (Option.some.inj hget')
    subst hname
    rw [← hfull] at hs
    refine ⟨⟨h, payload⟩, deserialize_ok.mpr ⟨hb, pb, sb, raw, .dict hd, ?_, h1, h2, h3, (halg h3).mpr hal,
      fun _ => ⟨(validateKey_suits h3).mpr hs, (hver h3 hs).mpr (by simpa using hsig)⟩, hp⟩, hfull, rfl⟩
    have := split_token hb pb sb d1 d2 d3
    simpa using this

/-! ### Concrete cases -/

/-- A key with an id, for signatures with HS256. -/
def boundKey : Jwk :=
  ⟨[(py! "kty", .str (py! "oct")), (py! "k", .str (py! "c2VjcmV0")), (py! "kid", .str (py! "k1")), (py! "alg", .str (py! "HS256")),
    (py! "use", .str (py! "sig")), (py! "key_ops", .list [.str (py! "sign"), .str (py! "verify")])], .oct (by! "secret")⟩

def boundHeader : JwsHeader := ⟨[(py! "alg", .str (py! "HS256")), (py! "kid", .str (py! "k1"))], .hs .sha256⟩

theorem boundKey_suits : Suits boundKey.data boundHeader.data :=
  ⟨Or.inr rfl, Or.inr rfl, Or.inr rfl, Or.inr (Or.inl ⟨_, rfl, by simp⟩)⟩

/-- The key signs under the header that names it. -/
example : ∃ tok, Jws.serialize toyCrypto ⟨boundHeader, by! "hi"⟩ boundKey 0 = .ok tok :=
  ⟨_, (C79_serialize toyCrypto (.dict boundHeader.data) boundHeader rfl (py! "HS256") rfl (.dict boundKey.data) boundKey rfl
    (by! "hi") 0 _).mpr ⟨boundKey_suits, _, _, _, rfl, rfl, rfl, Or.inr (.hs256 _ _)⟩⟩

/-- It does not sign under a header that names another key. -/
example (tok : Bytes) : Jws.serialize toyCrypto
    ⟨⟨[(py! "alg", .str (py! "HS256")), (py! "kid", .str (py! "k2"))], .hs .sha256⟩, by! "hi"⟩ boundKey 0 ≠ .ok tok := by
  intro h
  have hs := ((C79_serialize toyCrypto (.dict [(py! "alg", .str (py! "HS256")), (py! "kid", .str (py! "k2"))]) _ rfl
    (py! "HS256") rfl (.dict boundKey.data) boundKey rfl (by! "hi") 0 tok).mp h).1
  rcases hs.kid with h | h
  · cases h
  · have h' : Val.str (py! "k1") = .str (py! "k2") := h
    exact absurd (Val.str.inj h') (by decide)

/-- The signed token is accepted, by the other half of C79. -/
example (tok : Bytes) (h : Jws.serialize toyCrypto ⟨boundHeader, by! "hi"⟩ boundKey 0 = .ok tok) :
    ∃ j, Jws.deserialize toyCrypto tok boundKey (some (py! "HS256")) true = .ok j ∧ j.header.data = boundHeader.data ∧
      j.payload = by! "hi" := by
  obtain ⟨-, hb, msg, sig, h1, rfl, rfl, h4⟩ := (C79_serialize toyCrypto (.dict boundHeader.data) boundHeader rfl (py! "HS256")
    rfl (.dict boundKey.data) boundKey rfl (by! "hi") 0 tok).mp h
  have hr := header_reads_back (h := boundHeader) toyFloat_laws (by simp [boundHeader, Val.Wf, Val.WfD]) h1
  refine (C79_deserialize toyCrypto (.dict boundKey.data) boundKey rfl _ (some (py! "HS256")) _ _).mpr
    ⟨b64urlEncode hb, _, _, hb, boundHeader.data, py! "HS256", rfl, no_dot _, no_dot _, no_dot _, b64_roundtrip _, hr, ?_, rfl, rfl,
      Or.inr (Or.inr rfl), boundKey_suits, Or.inr ⟨sig, b64_roundtrip _, ?_⟩, b64_roundtrip _⟩
  · obtain ⟨_, e, hok⟩ := (C26_header_validation (.dict boundHeader.data)).mp ⟨boundHeader, rfl⟩
    cases e
    exact hok
  · rcases h4 with ⟨h4, -⟩ | h4
    · exact absurd h4 (by decide)
    · cases h4
      exact .hs256 _ _

/-- The tokens that are accepted, for any other way to say which signatures are valid. -/
theorem accept_iff {cr : Crypto} {v : Val} {key : Jwk} (hk : Jwk.init cr v = .ok key) {a : PyStr} (h0 : a ≠ []) (ha : a ≠ py! "none")
    {Valid : PyStr → Material → Bytes → Bytes → Prop} (hv : ∀ msg sig, SigOk cr a key.mat msg sig ↔ Valid a key.mat msg sig) {tok : Bytes}
    {header : Dict PyStr Val} {payload : Bytes} :
    (∃ j, Jws.deserialize cr tok key (some a) true = .ok j ∧ j.header.data = header ∧ j.payload = payload) ↔
      SignedToken Valid cr.fe key a tok header payload := by
  rw [C79_deserialize cr v key hk]
  constructor
  · rintro ⟨hb, pb, sb, raw, hdr, a', h1, h2, h3, h4, h5, h6, h7, h8, h9, h10, h11, h12, h13⟩
    have e : a' = a := by
      rcases h10 with h | h | h
      · cases h
      · cases h; exact absurd rfl h0
      · cases h; rfl
    subst e
    rcases h12 with h | ⟨sig, hs1, hs2⟩
    · exact absurd h ha
    · exact ⟨hb, pb, sb, raw, hdr, sig, h1, h2, h3, h4, h5, h6, h7, h8, h9, h11, h13, hs1, (hv _ _).mp hs2⟩
  · rintro ⟨hb, pb, sb, raw, hdr, sig, h1, h2, h3, h4, h5, h6, h7, h8, h9, h11, h13, hs1, hs2⟩
    exact ⟨hb, pb, sb, raw, hdr, a, h1, h2, h3, h4, h5, h6, h7, h8, h9, Or.inr (Or.inr rfl), h11,
      Or.inr ⟨sig, hs1, (hv _ _).mpr hs2⟩, h13⟩

end Psion.Props
