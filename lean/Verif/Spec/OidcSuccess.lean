import Verif.Spec.Sign
import Verif.Spec.Success

/-!
# Vocabulary for the property about ID tokens that have to be issued
-/

namespace Psion.Spec

open Psion

/-- The key makes signatures with the algorithm: it was made by the library, has an id, its members permit signatures with this
algorithm, and it makes one of every message. -/
structure SigningKey (cr : Crypto) (key : Jwk) (alg : PyStr) : Prop where
  made : ∃ v, Jwk.init cr v = .ok key
  suits : ∃ kid, Dict.get key.data (py! "kid") = some (.str kid) ∧ kid ≠ [] ∧ Encodable kid ∧
    Suits key.data [(py! "alg", .str alg), (py! "kid", .str kid)]
  signs : ∀ seed msg, ∃ sig, Signs cr seed alg key.mat msg sig

/-- User information that can be put into an ID token: no lone surrogates, no claim that the provider sets, and the right types
of those claims that are checked. -/
structure UsableInfo (info : Dict PyStr Val) : Prop where
  wf : (Val.dict info).Wf
  enc : Val.EncD info
  others : ∀ k ∈ [py! "iss", py! "aud", py! "exp", py! "iat", py! "nbf", py! "at_hash"], Dict.get info k = none
  text : ∀ k ∈ [py! "sub", py! "jti"], dget info k = .none ∨ ∃ s, dget info k = .str s
  maxAge : dget info (py! "max_age") = .none ∨ ∃ i, dget info (py! "max_age") = .int i

/-- The clock runs: each reading succeeds, is not before an earlier one, and less than `lifespan` seconds after it. -/
structure ClockRuns (tr : List Ev) (lifespan : Int) : Prop where
  reads : ∀ r, (⟨.stamp, r⟩ : Ev) ∈ tr → ∃ t, r = .ok t
  order : ∀ pre mid post t t', tr = pre ++ ⟨.stamp, .ok t⟩ :: (mid ++ ⟨.stamp, .ok t'⟩ :: post) →
    t ≤ t' ∧ t' < t + lifespan

/-- In the execution the adapter does what is needed for ID tokens about the user. -/
structure OidcWorks (cr : Crypto) (tr : List Ev) (user : User) (lifespan : Int) : Prop where
  key : ∀ r, (⟨.getKeyInfo, r⟩ : Ev) ∈ tr → ∃ key alg, r = .ok (key, alg) ∧ SigningKey cr key alg
  info : ∀ s r, (⟨.getUserinfo user s, r⟩ : Ev) ∈ tr → ∃ info, r = .ok info ∧ UsableInfo info
  seed : ∀ r, (⟨.seed, r⟩ : Ev) ∈ tr → ∃ n, r = .ok n
  clock : ClockRuns tr lifespan

end Psion.Spec
