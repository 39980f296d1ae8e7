import Verif.Jose.Jwt

/-!
# Specifications for the JOSE properties

Tables and relations written from RFC 7515/7518 and the documentation of the library, without reference to
`JwsAlg`, `JwsHeader.init` or the other functions of the model. Only `Crypto` (the primitives) and `Material` (the numbers of a
key) are shared.
-/

namespace Psion.Spec

open Psion

/-- RFC 7518, section 3.1: which keys an algorithm may be used with. There is no row for `none`. -/
inductive AlgFits : PyStr → Material → Prop
  | hs256 s : AlgFits (py! "HS256") (.oct s)
  | hs384 s : AlgFits (py! "HS384") (.oct s)
  | hs512 s : AlgFits (py! "HS512") (.oct s)
  | rs256 n e p : AlgFits (py! "RS256") (.rsa n e p)
  | rs384 n e p : AlgFits (py! "RS384") (.rsa n e p)
  | rs512 n e p : AlgFits (py! "RS512") (.rsa n e p)
  | ps256 n e p : AlgFits (py! "PS256") (.rsa n e p)
  | ps384 n e p : AlgFits (py! "PS384") (.rsa n e p)
  | ps512 n e p : AlgFits (py! "PS512") (.rsa n e p)
  | es256 x y d : AlgFits (py! "ES256") (.ec .p256 x y d)
  | es384 x y d : AlgFits (py! "ES384") (.ec .p384 x y d)
  | es512 x y d : AlgFits (py! "ES512") (.ec .p521 x y d)

/-- `SigOk cr alg key msg sig`: `sig` is a valid signature of `msg` under `key` with the algorithm
called `alg` (the table of RFC 7518, section 3.1; the form of a signature is that of `cryptography`, see `RfcSig` for the one of the
standard). There is no row for `none`. -/
inductive SigOk (cr : Crypto) : PyStr → Material → Bytes → Bytes → Prop
  | hs256 s msg : SigOk cr (py! "HS256") (.oct s) msg (cr.hmac .sha256 s msg)
  | hs384 s msg : SigOk cr (py! "HS384") (.oct s) msg (cr.hmac .sha384 s msg)
  | hs512 s msg : SigOk cr (py! "HS512") (.oct s) msg (cr.hmac .sha512 s msg)
  | rs256 n e p msg sig (h : cr.rsaVerify n e .pkcs1v15 .sha256 msg sig = .ok true) :
      SigOk cr (py! "RS256") (.rsa n e p) msg sig
  | rs384 n e p msg sig (h : cr.rsaVerify n e .pkcs1v15 .sha384 msg sig = .ok true) :
      SigOk cr (py! "RS384") (.rsa n e p) msg sig
  | rs512 n e p msg sig (h : cr.rsaVerify n e .pkcs1v15 .sha512 msg sig = .ok true) :
      SigOk cr (py! "RS512") (.rsa n e p) msg sig
  | ps256 n e p msg sig (h : cr.rsaVerify n e .pss .sha256 msg sig = .ok true) :
      SigOk cr (py! "PS256") (.rsa n e p) msg sig
  | ps384 n e p msg sig (h : cr.rsaVerify n e .pss .sha384 msg sig = .ok true) :
      SigOk cr (py! "PS384") (.rsa n e p) msg sig
  | ps512 n e p msg sig (h : cr.rsaVerify n e .pss .sha512 msg sig = .ok true) :
      SigOk cr (py! "PS512") (.rsa n e p) msg sig
  | es256 x y d msg sig (h : cr.ecVerify .p256 x y .sha256 msg sig = true) :
      SigOk cr (py! "ES256") (.ec .p256 x y d) msg sig
  | es384 x y d msg sig (h : cr.ecVerify .p384 x y .sha384 msg sig = true) :
      SigOk cr (py! "ES384") (.ec .p384 x y d) msg sig
  | es512 x y d msg sig (h : cr.ecVerify .p521 x y .sha512 msg sig = true) :
      SigOk cr (py! "ES512") (.ec .p521 x y d) msg sig

/-- The algorithm names of RFC 7518, section 3.1. -/
def supportedAlgs : List PyStr :=
  [py! "none", py! "HS256", py! "HS384", py! "HS512", py! "RS256", py! "RS384", py! "RS512",
    py! "ES256", py! "ES384", py! "ES512", py! "PS256", py! "PS384", py! "PS512"]

/-- The member is a non-empty text. -/
def NonEmptyText (v : Val) : Prop := ∃ c s, v = .str (c :: s)

/-- Header `h` meets the rules: `alg` supported; `kid`, `typ`, `cty` if present are non-empty texts;
`crit` if present is a non-empty list of non-empty names of members that occur with a value that is
not empty. -/
structure HeaderOk (h : Dict PyStr Val) : Prop where
  alg : ∃ a ∈ supportedAlgs, Dict.get h (py! "alg") = some (.str a)
  text : ∀ k ∈ [py! "kid", py! "typ", py! "cty"], ∀ v, Dict.get h k = some v → NonEmptyText v
  crit : ∀ v, Dict.get h (py! "crit") = some v → ∃ l, v = .list l ∧ l ≠ [] ∧
    ∀ i ∈ l, NonEmptyText i ∧ ∃ n w, i = .str n ∧ Dict.get h n = some w ∧ w.truthy = true

/-- Whatever `sk` signs is accepted by `vk` (a property of the pair of keys and of the external primitives). -/
def GenuinePair (cr : Crypto) (sk vk : Material) : Prop :=
  ∀ h pad msg seed sig, sk.sign cr msg h pad seed = .ok sig → vk.verify cr sig msg h pad = .ok ()

/-- The key has a private part (for RSA: one the signature primitive does not refuse). -/
def HasPrivate (cr : Crypto) : Material → Prop
  | .oct _ => True
  | .ec _ _ _ d => ∃ n, d = some n
  | .rsa n e p => ∃ r, p = some r ∧ ∀ pad h msg seed, ∃ s, cr.rsaSign n e r pad h msg seed = .ok s

/-- The members of a key that restrict its use agree. -/
def SameRestrictions (a b : Jwk) : Prop :=
  ∀ k ∈ [py! "kty", py! "crv", py! "alg", py! "kid", py! "use", py! "key_ops"],
    dget a.data k = dget b.data k

/-- The key can produce signatures: it is a secret or has its private part. -/
def HasSecretPart : Material → Prop
  | .oct _ => True
  | .ec _ _ _ d => d ≠ none
  | .rsa _ _ p => p ≠ none

/-- No number of the key is zero. -/
def NoZero : Material → Prop
  | .oct _ => True
  | .ec _ x y d => x ≠ 0 ∧ y ≠ 0 ∧ d ≠ some 0
  | .rsa n e p => n ≠ 0 ∧ e ≠ 0 ∧
      ∀ r, p = some r → r.d ≠ 0 ∧ r.p ≠ 0 ∧ r.q ≠ 0 ∧ r.dp ≠ 0 ∧ r.dq ≠ 0 ∧ r.qi ≠ 0

/-- RFC 7518, section 6: the members that carry private numbers of an asymmetric key. -/
def privateMembers : Material → List PyStr
  | .oct _ => [py! "k"]
  | .ec .. => [py! "d"]
  | .rsa .. => [py! "d", py! "p", py! "q", py! "dp", py! "dq", py! "qi", py! "oth"]

/-- RFC 7518, section 6: all members that describe the key itself. Every other member (`kid`, `use`, …) is additional. -/
def keyMembers : Material → List PyStr
  | .oct _ => [py! "k"]
  | .ec .. => [py! "crv", py! "x", py! "y", py! "d"]
  | .rsa .. => [py! "n", py! "e", py! "d", py! "p", py! "q", py! "dp", py! "dq", py! "qi"]

/-- The same key without its private part. -/
def publicPart : Material → Material
  | .oct s => .oct s
  | .ec c x y _ => .ec c x y none
  | .rsa n e _ => .rsa n e none

/-! ## Claims (RFC 7519, section 4.1) -/

/-- Types of the registered claims. A claim that is `null`, `0`, `false` or empty counts as absent where noted `falsy`. -/
structure ClaimTypes (c : Dict PyStr Val) : Prop where
  text : ∀ k ∈ [py! "iss", py! "sub", py! "jti"], dget c k = .none ∨ ∃ s, dget c k = .str s
  aud : (dget c (py! "aud")).truthy = false ∨ (∃ s, dget c (py! "aud") = .str s) ∨
    ∃ l, dget c (py! "aud") = .list l ∧ ∀ i ∈ l, ∃ s, i = .str s
  date : ∀ k ∈ [py! "exp", py! "iat", py! "nbf"], (dget c k).truthy = false ∨ ∃ i, dget c k = .int i

/-- The claims are within their validity window at the time `now`. A zero does not count. -/
structure InWindow (now : Int) (c : Dict PyStr Val) : Prop where
  exp : ∀ i, dget c (py! "exp") = .int i → i ≠ 0 → now < i
  iat : ∀ i, dget c (py! "iat") = .int i → i ≠ 0 → i ≤ now
  nbf : ∀ i, dget c (py! "nbf") = .int i → i ≠ 0 → i ≤ now

/-- The claim is one of the values: it is equal to one of them, or is a list one item of which is one of them. -/
def OneOf (v : Val) (vs : List Val) : Prop :=
  (∃ e ∈ vs, v.pyEq e = true) ∨ ∃ items, v = .list items ∧ ∃ i ∈ items, ∃ e ∈ vs, e.pyEq i = true

/-- A claim `v` satisfies an option. -/
structure OptionMet (v : Val) (o : Dict PyStr Val) : Prop where
  essential : (dget o (py! "essential")).truthy = true → v ≠ .none
  value : dget o (py! "value") ≠ .none → v.pyEq (dget o (py! "value")) = true
  values : dget o (py! "values") ≠ .none → ∃ vs, dget o (py! "values") = .list vs ∧ OneOf v vs

/-- The same, for expected values that are not empty, zero or false (`value`), and not the empty list (`values`). -/
structure OptionMetTruthy (v : Val) (o : Dict PyStr Val) : Prop where
  essential : (dget o (py! "essential")).truthy = true → v ≠ .none
  value : (dget o (py! "value")).truthy = true → v.pyEq (dget o (py! "value")) = true
  values : (dget o (py! "values")).truthy = true → ∃ vs, dget o (py! "values") = .list vs ∧ OneOf v vs

end Psion.Spec
