import Verif.Props.KeyLoad
import Verif.Props.JwsExact
import Verif.Spec.Rfc7518

/-!
# Property C100: keys are strong enough for their algorithm
-/

namespace Psion.Props

open Psion Psion.Spec

/-- C100, the part that holds: a key that `JsonWebKey.generate` makes without a size is strong enough for HS256 and for all RSA
algorithms, and one of the size that the algorithm needs is strong enough for it. -/
theorem C100_generate_partial (cr : Crypto) (f : Fresh) (hf : Sized f) (alg : PyStr) (option : Option (Nat ⊕ PyStr)) (m : Material)
    (hr : Requested f alg option m) (hz : NoZero m) (hv : m.Valid cr) (params : Dict PyStr Val) (hok : Dict.Ok params)
    (hx : Extra m params) :
    ∃ key, Jwk.generate cr alg option f params = .ok key ∧
      (alg = py! "oct" → StrongFor (py! "HS256") key.mat) ∧
      (∀ size, alg = py! "oct" → option = some (.inl size) → 48 ≤ size → StrongFor (py! "HS384") key.mat) ∧
      (∀ size, alg = py! "oct" → option = some (.inl size) → 64 ≤ size → StrongFor (py! "HS512") key.mat) ∧
      (alg = py! "RSA" → (∀ size, option = some (.inl size) → size = 0 ∨ 2048 ≤ size) → ∀ a, StrongFor a key.mat) := by
  obtain ⟨key, hg, rfl, -⟩ := C68_generate cr alg option f m hr hz hv params hok hx
  have strong : ∀ {e size n e' r}, f.rsa e size = .ok (n, e', r) → 2048 ≤ size → 2 ^ 2047 ≤ n := by
    intro e size n e' r h hs
    exact Nat.le_trans (Nat.pow_le_pow_right (by decide) (by omega)) (hf.rsa _ _ _ _ _ (by omega) h).1
  refine ⟨key, hg, ?_, ?_, ?_, ?_⟩
  all_goals generalize key.mat = m at hr
  all_goals clear hz hv hx hg
  · rintro rfl
    cases hr with
    | oct => simp [StrongFor, hf.oct]
    | octZero => simp [StrongFor, hf.oct]
    | octSize n h => simp [StrongFor, hf.oct, h]
  · rintro size rfl rfl hs
    cases hr with
    | octZero => omega
    | octSize n h => simp [StrongFor, hf.oct, hs]
  · rintro size rfl rfl hs
    cases hr with
    | octZero => omega
    | octSize n h => simp [StrongFor, hf.oct, hs]
  · rintro rfl hsize a
    cases hr with
    | rsa n e r h => exact strong h (by omega)
    | rsaZero n e r h => exact strong h (by omega)
    | rsaSize n e r size hs h =>
      refine strong h ?_
      have := hsize size rfl
      omega

/-- C100 fails otherwise. No secret is too short: with every secret, of a single octet too, tokens are signed with HS512 and accepted. And
`JsonWebKey.generate` makes RSA keys from 512 bits on, which are too short for every RSA algorithm up to 2047 bits. -/
theorem C100_refuted (cr : Crypto) :
    (FloatLaws cr.fe → ∀ (s payload : Bytes) (seed : Nat), ∃ key tok,
      Jwk.init cr (.dict [(py! "kty", .str (py! "oct")), (py! "k", .str (toStringB (b64urlEncode s)))]) = .ok key ∧
      (s.length < 64 → ¬ StrongFor (py! "HS512") key.mat) ∧
      Jws.serialize cr ⟨⟨[(py! "alg", .str (py! "HS512"))], .hs .sha512⟩, payload⟩ key seed = .ok tok ∧
      Jws.deserialize cr tok key (some (py! "HS512")) true = .ok ⟨⟨[(py! "alg", .str (py! "HS512"))], .hs .sha512⟩, payload⟩) ∧
    (∀ (f : Fresh) (size n e : Nat) (r : RsaPriv), Sized f → 512 ≤ size → size < 2048 → f.rsa 65537 size = .ok (n, e, r) →
      NoZero (.rsa n e (some r)) → (Material.rsa n e (some r)).Valid cr →
      ∃ key, Jwk.generate cr (py! "RSA") (some (.inl size)) f [] = .ok key ∧ ∀ a, ¬ StrongFor a key.mat) := by
  constructor
  · intro hfl s payload seed
    let key : Jwk := ⟨[(py! "kty", .str (py! "oct")), (py! "k", .str (toStringB (b64urlEncode s)))], .oct s⟩
    have hk : Jwk.init cr (.dict key.data) = .ok key :=
      jwkInit_ok.mpr ⟨_, rfl, rfl, rfl, octInit_canon rfl rfl⟩
    have hh : JwsHeader.init (.dict [(py! "alg", .str (py! "HS512"))]) = .ok ⟨[(py! "alg", .str (py! "HS512"))], .hs .sha512⟩ := rfl
    have hser := (C79_serialize cr _ _ hh (py! "HS512") rfl _ key hk payload seed _).mpr
      ⟨⟨Or.inl rfl, Or.inl rfl, Or.inl rfl, Or.inl rfl⟩, _, _, _, rfl, rfl, rfl, Or.inr (.hs512 s _)⟩
    refine ⟨key, _, hk, ?_, hser, ?_⟩
    · intro hs hst
      have : 64 ≤ s.length := hst.2.2 rfl
      omega
    · exact C19_jws_roundtrip cr hfl _ _ hh (by simp [Val.Wf, Val.WfD]) payload key key seed _ hser (C19_oct_pair cr s) (fun _ _ => rfl) _
        (Or.inr ⟨_, rfl, rfl⟩)
  · intro f size n e r hf h1 h2 h hz hv
    obtain ⟨key, hg, hm, -⟩ := C68_generate cr _ _ f _ (.rsaSize n e r size h1 h) hz hv [] (by simp [Dict.Ok, Dict.keys])
      (fun k _ => rfl)
    refine ⟨key, hg, fun a ha => ?_⟩
    rw [hm] at ha
    have h3 : 2 ^ 2047 ≤ n := ha
    have h4 := (hf.rsa _ _ _ _ _ (by omega) h).2
    have h5 : 2 ^ size ≤ 2 ^ 2047 := Nat.pow_le_pow_right (by decide) (by omega)
    omega

/-! ### Concrete cases -/

theorem toyFresh_sized : Sized toyFresh where
  oct n := List.length_replicate
  rsa e size n e' r hs h := by
    simp only [toyFresh, Except.ok.injEq, Prod.mk.injEq] at h
    obtain ⟨rfl, -, -⟩ := h
    have : 0 < 2 ^ size := Nat.pow_pos (by decide)
    cases size with
    | zero => omega
    | succ k => simp only [Nat.add_sub_cancel, Nat.pow_succ]; omega

/-- A secret of one octet. -/
example : ∃ key tok, Jwk.init toyCrypto (.dict [(py! "kty", .str (py! "oct")), (py! "k", .str (py! "BQ"))]) = .ok key ∧
    ¬ StrongFor (py! "HS512") key.mat ∧
    Jws.serialize toyCrypto ⟨⟨[(py! "alg", .str (py! "HS512"))], .hs .sha512⟩, by! "hi"⟩ key 0 = .ok tok := by
  obtain ⟨key, tok, h1, h2, h3, -⟩ := (C100_refuted toyCrypto).1 toyFloat_laws [5] (by! "hi") 0
  have e : toStringB (b64urlEncode [5]) = py! "BQ" := by decide +kernel
  rw [e] at h1
  exact ⟨key, tok, h1, h2 (by decide), h3⟩

/-- The secret that is made by default suits HS256. -/
example : ∃ key, Jwk.generate toyCrypto (py! "oct") none toyFresh [(py! "kid", .str (py! "a"))] = .ok key ∧
    StrongFor (py! "HS256") key.mat := by
  obtain ⟨key, h1, h2, -⟩ := C100_generate_partial toyCrypto toyFresh toyFresh_sized (py! "oct") none _ .oct trivial trivial
    [(py! "kid", .str (py! "a"))] (by simp [Dict.Ok, Dict.keys]) (by
      intro k hk
      simp only [keyMembers, List.mem_cons, List.not_mem_nil, or_false] at hk
      rcases hk with h | h | h <;> subst h <;> rfl)
  exact ⟨key, h1, h2 rfl⟩

end Psion.Props
