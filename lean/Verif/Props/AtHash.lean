import Verif.Props.Oidc
import Verif.Props.Sha2
import Verif.Props.Encodings

/-!
# Property C128: the hash of the access token in an ID token
-/

namespace Psion.Props

open Psion Psion.Spec

/-- `hashlib.sha256`, `hashlib.sha384` and `hashlib.sha512` are the functions of FIPS 180-4. -/
def FipsHashes (he : HashEnv) : Prop :=
  ∀ name h, (name, h) ∈ [(py! "256", Hash.sha256), (py! "384", .sha384), (py! "512", .sha512)] →
    ∃ f, he.sha name = some f ∧ ∀ m d, f m = d ↔ Digest h m d

/-- The hash function of a signature algorithm (RFC 7518, section 3.1). -/
inductive AlgHash : PyStr → Hash → Prop
  | hs256 : AlgHash (py! "HS256") .sha256
  | hs384 : AlgHash (py! "HS384") .sha384
  | hs512 : AlgHash (py! "HS512") .sha512
  | rs256 : AlgHash (py! "RS256") .sha256
  | rs384 : AlgHash (py! "RS384") .sha384
  | rs512 : AlgHash (py! "RS512") .sha512
  | es256 : AlgHash (py! "ES256") .sha256
  | es384 : AlgHash (py! "ES384") .sha384
  | es512 : AlgHash (py! "ES512") .sha512
  | ps256 : AlgHash (py! "PS256") .sha256
  | ps384 : AlgHash (py! "PS384") .sha384
  | ps512 : AlgHash (py! "PS512") .sha512

/-- OpenID Connect Core 1.0, section 3.1.3.6: the base64url text of the left half of the digest of the octets of the access token. -/
def AtHash (h : Hash) (access hash : PyStr) : Prop :=
  ∃ octets digest half other text, Utf8Octets access octets ∧ Digest h octets digest ∧ digest = half ++ other ∧ half.length = other.length ∧
    Base64url half text ∧ hash = asciiStr text

theorem half_eq {f half other : Bytes} (h : f = half ++ other) (hl : half.length = other.length) : f.take (f.length / 2) = half := by
  rw [h, List.length_append, ← hl, show (half.length + half.length) / 2 = half.length by omega, List.take_left' rfl]

theorem digest_even {h : Hash} {m d : Bytes} (hd : Digest h m d) : d.length % 2 = 0 := by
  rw [← (C124_hash h m d).mpr hd]
  rw [Real.hash_length]
  cases h <;> rfl

/-- C128: where the functions of `hashlib` are those of FIPS 180-4, the value that the provider puts into ID tokens for the access token is
the one of OpenID Connect, and nothing else. -/
theorem C128_at_hash (he : HashEnv) (hfips : FipsHashes he) (access alg hash : PyStr) (h : Hash) (ha : AlgHash alg h) :
    createHalfHash he access alg = .ok hash ↔ AtHash h access hash := by
  obtain ⟨f, hf, hfd⟩ : ∃ f, he.sha (alg.drop 2) = some f ∧ ∀ m d, f m = d ↔ Digest h m d := by
    cases ha <;> exact hfips _ _ (by decide)
  unfold createHalfHash
  rw [hf]
  dsimp only
  constructor
  · intro hh
    split at hh
    · cases hh
    · rename_i b hb
      cases hh
      have hd := (hfd b (f b)).mp rfl
      have he := digest_even hd
      refine ⟨b, f b, (f b).take ((f b).length / 2), (f b).drop ((f b).length / 2), _, utf8Octets_iff.mpr hb, hd, (List.take_append_drop _ _).symm,
        ?_, base64url_iff.mpr rfl, toStringB_ascii (b64url_ascii _)⟩
      rw [List.length_take, List.length_drop]
      omega
  · rintro ⟨b, digest, half, other, text, h1, h2, h3, h4, h5, rfl⟩
    rw [utf8Octets_iff.mp h1]
    dsimp only
    rw [(hfd b digest).mpr h2, half_eq h3 h4, base64url_iff.mp h5]
    rw [← base64url_iff.mp h5, toStringB_ascii (b64url_ascii _)]

/-- C128: so is the value that the claims about ID tokens (C56, C81, C91) speak of. -/
theorem C128_token (he : HashEnv) (hfips : FipsHashes he) (access alg hash : PyStr) (h : Hash) (ha : AlgHash alg h) :
    IsAtHash he access alg hash ↔ AtHash h access hash := by
  rw [← C128_at_hash he hfips access alg hash h ha]
  unfold IsAtHash createHalfHash
  constructor
  · rintro ⟨f, b, hf, hb, rfl⟩
    rw [hf]
    dsimp only
    rw [hb]
    dsimp only
    rw [toStringB_ascii (b64url_ascii _)]
  · intro hh
    split at hh
    · cases hh
    · rename_i f hf
      split at hh
      · cases hh
      · rename_i b hb
        cases hh
        exact ⟨f, b, hf, hb, toStringB_ascii (b64url_ascii _)⟩

/-- The functions themselves. -/
def fipsEnv : HashEnv where
  sha name := if name = py! "256" then some (Real.sha2 .sha256).hash else if name = py! "384" then some (Real.sha2 .sha384).hash
    else if name = py! "512" then some (Real.sha2 .sha512).hash else none

theorem fipsEnv_fips : FipsHashes fipsEnv := by
  intro name h hm
  simp only [List.mem_cons, List.not_mem_nil, or_false, Prod.mk.injEq] at hm
  rcases hm with ⟨rfl, rfl⟩ | ⟨rfl, rfl⟩ | ⟨rfl, rfl⟩ <;> exact ⟨_, rfl, C124_hash _⟩

/-- OpenID Connect Core 1.0, appendices A.3 and A.4. -/
example : AtHash .sha256 (py! "jHkWEdUXMU1BwAsC4vtUsZwnNvTIxEl0z9K3vx5KF0Y") (py! "77QmUPtjPfzWtF2AnpK9RQ") :=
  (C128_at_hash fipsEnv fipsEnv_fips _ (py! "RS256") _ _ .rs256).mp (by decide +kernel)

end Psion.Props
