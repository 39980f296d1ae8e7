import Verif.Props.Jwk

/-!
# What loading a key means
-/

namespace Psion.Props

open Psion Spec

/-! ## C67 -/

/-- The member is a text that encodes the number. -/
def Encodes (v : Val) (n : Nat) : Prop := ∃ s, v = .str s ∧ b64ToInt s = .ok n

/-- The factors and exponents of an RSA key are those of the members; what is missing is computed by the primitives. -/
structure RsaMembers (cr : Crypto) (d : Dict PyStr Val) (n e : Nat) (r : RsaPriv) : Prop where
  exponent : Encodes (dget d (py! "d")) r.d
  factors : ∀ p q, Encodes (dget d (py! "p")) p → Encodes (dget d (py! "q")) q → p ≠ 0 → q ≠ 0 → r.p = p ∧ r.q = q
  recovered : dget d (py! "p") = .none ∨ dget d (py! "q") = .none → cr.rsaRecover n e r.d = .ok (r.p, r.q)
  dp : ∀ x, Encodes (dget d (py! "dp")) x → x ≠ 0 → r.dp = x
  dq : ∀ x, Encodes (dget d (py! "dq")) x → x ≠ 0 → r.dq = x
  qi : ∀ x, Encodes (dget d (py! "qi")) x → x ≠ 0 → r.qi = x
  noDp : dget d (py! "dp") = .none → cr.rsaDmp1 r.d r.p = .ok r.dp
  noDq : dget d (py! "dq") = .none → cr.rsaDmq1 r.d r.q = .ok r.dq
  noQi : dget d (py! "qi") = .none → cr.rsaIqmp r.p r.q = .ok r.qi

/-- The key object is the one described by the members `d`, and the primitives accept its numbers. -/
def Describes (cr : Crypto) (d : Dict PyStr Val) : Material → Prop
  | .oct s => dget d (py! "kty") = .str (py! "oct") ∧
      ∀ text, dget d (py! "k") = .str text → ∃ b, utf8Encode text = .ok b ∧ b64urlDecode b = .ok s
  | .ec c x y o => dget d (py! "kty") = .str (py! "EC") ∧ dget d (py! "crv") = .str c.name ∧
      Encodes (dget d (py! "x")) x ∧ Encodes (dget d (py! "y")) y ∧ cr.ecPubOk c x y = true ∧
      ((dget d (py! "d")).truthy = false ∧ o = none ∨
        ∃ n, o = some n ∧ Encodes (dget d (py! "d")) n ∧ cr.ecPrivOk c x y n = true)
  | .rsa n e o => dget d (py! "kty") = .str (py! "RSA") ∧ Encodes (dget d (py! "n")) n ∧ Encodes (dget d (py! "e")) e ∧
      cr.rsaPubOk n e = true ∧
      ((dget d (py! "d")).truthy = false ∧ o = none ∨
        ∃ r, o = some r ∧ RsaMembers cr d n e r ∧ cr.rsaPrivOk n e r = true)

theorem encodes_of {v : Val} {n : Nat} (h : b64ToIntV v = .ok (some n)) : Encodes v n := by
  unfold b64ToIntV at h
  split at h
  · cases h
  · rename_i s
    split at h
    · cases h
    · rename_i m hm
      cases h
      exact ⟨s, rfl, hm⟩
  · cases h

theorem encodes_to {v : Val} {n : Nat} (h : Encodes v n) : b64ToIntV v = .ok (some n) := by
  obtain ⟨s, rfl, hs⟩ := h
  simp [b64ToIntV, hs]

theorem encodes_nat {v : Val} {n : Nat} (h : b64ToNat v = .ok n) : Encodes v n := by
  unfold b64ToNat at h
  split at h
  · cases h
  · cases h
  · rename_i m hm
    cases h
    exact encodes_of hm

theorem falsyNum_ne {n : Nat} (h : n ≠ 0) : falsyNum (some n) = false := by
  cases n with
  | zero => exact absurd rfl h
  | succ n => rfl

theorem rsaPrivate_members {cr : Crypto} {n e : Nat} {d : Dict PyStr Val} {r : RsaPriv} (h : rsaPrivate cr n e d = .ok r) :
    RsaMembers cr d n e r := by
  unfold rsaPrivate at h
  simp only [bind_ok_iff, pure_ok_iff] at h
  obtain ⟨dn, hd, p, hp, q, hq, dp, hdp, dq, hdq, qi, hqi, pq, hpq, dp', hdp', dq', hdq', qi', hqi', rfl⟩ := h
  have one : ∀ {k : PyStr} {o : Option Nat} {f : Res Nat} {x : Nat}, b64ToIntV (dget d k) = .ok o → numOr o f = .ok x →
      (∀ y, Encodes (dget d k) y → y ≠ 0 → x = y) ∧ (dget d k = .none → f = .ok x) := by
    intro k o f x h1 h2
    constructor
    · intro y hy h0
      rw [encodes_to hy] at h1
      cases h1
      unfold numOr at h2
      rw [if_neg (by rw [falsyNum_ne h0]; simp)] at h2
      cases h2
      rfl
    · intro h0
      rw [h0] at h1
      cases h1
      exact h2
  refine ⟨encodes_nat hd, ?_, ?_, (one hdp hdp').1, (one hdq hdq').1, (one hqi hqi').1, (one hdp hdp').2, (one hdq hdq').2,
    (one hqi hqi').2⟩
  · intro p' q' hp' hq' h0 h1
    rw [encodes_to hp'] at hp
    rw [encodes_to hq'] at hq
    cases hp
    cases hq
    rw [falsyNum_ne h0, falsyNum_ne h1] at hpq
    cases hpq
    exact ⟨rfl, rfl⟩
  · intro h0
    have : (falsyNum p || falsyNum q) = true := by
      rcases h0 with h0 | h0
      · rw [h0] at hp; cases hp; rfl
      · rw [h0] at hq; cases hq; simp [falsyNum]
    rw [if_pos this] at hpq
    exact hpq

/-- C67: a key that could be loaded is the one described by its members, and its numbers have been accepted by the primitives. -/
theorem C67_loaded (cr : Crypto) (v : Val) (key : Jwk) (h : Jwk.init cr v = .ok key) :
    ∃ d, v = .dict d ∧ Describes cr d key.mat := by
  obtain ⟨d, rfl, -, h2, h3⟩ := jwkInit_ok.mp h
  refine ⟨d, rfl, ?_⟩
  obtain ⟨kd, m⟩ := key
  dsimp only at h2 h3 ⊢
  cases m with
  | oct s =>
    refine ⟨h2, ?_⟩
    intro text ht
    obtain ⟨b, s', e, hb, hs⟩ := octInit_ok h3
    cases e
    rw [ht] at hb
    unfold toBytesV at hb
    dsimp only at hb
    split at hb
    · cases hb
    · rename_i b' hb'
      cases hb
      exact ⟨b, hb', hs⟩
  | ec c x y o =>
    obtain ⟨c', x', y', o', e, hc, hx, hy, hok, ho⟩ := ecInit_ok h3
    cases e
    refine ⟨h2, hc, encodes_of hx, encodes_of hy, hok, ?_⟩
    rcases ho with ho | ⟨n, -, hn, hp, ho⟩
    · exact Or.inl ho
    · exact Or.inr ⟨n, ho, encodes_nat hn, hp⟩
  | rsa n e o =>
    obtain ⟨n', e', o', e0, hn, he, hok, ho⟩ := rsaInit_ok h3
    cases e0
    refine ⟨h2, encodes_of hn, encodes_of he, hok, ?_⟩
    rcases ho with ho | ⟨r, -, hr, hp, ho⟩
    · exact Or.inl ho
    · exact Or.inr ⟨r, ho, rsaPrivate_members hr, hp⟩

/-- The members of an RSA key with modulus 15 and the factors `p` and `q`. -/
def rsaMembers (p q : PyStr) : Dict PyStr Val :=
  [(py! "kty", .str (py! "RSA")), (py! "n", .str (py! "Dw")), (py! "e", .str (py! "AQ")), (py! "d", .str (py! "Aw")),
    (py! "p", .str p), (py! "q", .str q)]

/-- A key whose factors fit is loaded, one whose factors do not is refused. -/
example : Jwk.init toyCrypto (.dict (rsaMembers (py! "Aw") (py! "BQ"))) =
    .ok ⟨rsaMembers (py! "Aw") (py! "BQ"), .rsa 15 1 (some ⟨3, 3, 5, 3, 3, 1⟩)⟩ := by
  refine jwkInit_ok.mpr ⟨_, rfl, rfl, rfl, ?_⟩
  decide +kernel

example : Jwk.init toyCrypto (.dict (rsaMembers (py! "Aw") (py! "Aw"))) ≠
    .ok ⟨rsaMembers (py! "Aw") (py! "Aw"), .rsa 15 1 (some ⟨3, 3, 3, 3, 3, 1⟩)⟩ := by
  intro h
  obtain ⟨d, e, h⟩ := C67_loaded _ _ _ h
  obtain ⟨-, -, -, -, h | ⟨r, e, -, h⟩⟩ := h
  · cases h.2
  · cases e
    exact absurd h (by decide)

/-! ## C68 -/

/-- The key object of a member list depends only on the members of its type. -/
theorem materialInit_congr {cr : Crypto} {k : Kty} {d d' : Dict PyStr Val}
    (h : ∀ n ∈ py! "self" :: k.allowed, Dict.get d n = Dict.get d' n) : materialInit cr k d = materialInit cr k d' := by
  have hs : Dict.mem d (py! "self") = Dict.mem d' (py! "self") := by
    unfold Dict.mem; rw [h _ (by simp)]
  have ha : ∀ n ∈ k.allowed, arg d n = arg d' n := fun n hn => by
    unfold arg; rw [h n (List.mem_cons_of_mem _ hn)]
  have hg : ∀ n ∈ k.allowed, dget d n = dget d' n := fun n hn => by
    unfold dget; rw [h n (List.mem_cons_of_mem _ hn)]
  cases k with
  | oct =>
    simp only [materialInit, octInit]
    rw [hs, ha _ (by simp [Kty.allowed])]
  | ec =>
    simp only [materialInit, ecInit]
    rw [hs, ha (py! "crv") (by simp [Kty.allowed]), ha (py! "x") (by simp [Kty.allowed]), ha (py! "y") (by simp [Kty.allowed]),
      hg (py! "d") (by simp [Kty.allowed])]
  | rsa =>
    have hp : ∀ n e, rsaPrivate cr n e d = rsaPrivate cr n e d' := by
      intro n e
      unfold rsaPrivate
      rw [hg (py! "d") (by simp [Kty.allowed]), hg (py! "p") (by simp [Kty.allowed]), hg (py! "q") (by simp [Kty.allowed]),
        hg (py! "dp") (by simp [Kty.allowed]), hg (py! "dq") (by simp [Kty.allowed]), hg (py! "qi") (by simp [Kty.allowed])]
    simp only [materialInit, rsaInit, hp]
    rw [hs, ha (py! "n") (by simp [Kty.allowed]), ha (py! "e") (by simp [Kty.allowed]), hg (py! "d") (by simp [Kty.allowed])]

/-- The extra members name neither the type of the key nor one of its numbers. (`self` cannot be passed as keyword at all.) -/
def Extra (m : Material) (extra : Dict PyStr Val) : Prop :=
  ∀ k ∈ py! "self" :: py! "kty" :: keyMembers m, Dict.get extra k = none

/-- C68: the extra members passed to `JsonWebKey.parse` are members of the key, whatever the raw key says. -/
theorem C68_parse_options (cr : Crypto) (raw : Bytes) (alg : PyStr) (pub : Bool) (pw : Option Bytes) (format : PyStr)
    (options : Dict PyStr Val) (hok : Dict.Ok options) (key : Jwk) (h : Jwk.parse cr raw alg pub pw format options = .ok key)
    (k : PyStr) (v : Val) (hv : Dict.get options k = some v) : dget key.data k = v := by
  unfold Jwk.parse at h
  split at h
  · cases h
  · split at h
    · cases h
    · rename_i m hm
      split at h
      · cases h
      · rename_i md hmd
        obtain ⟨d, e, hdata, -, -⟩ := jwkInit_ok.mp h
        cases e
        have hget : Dict.get (Dict.update md options) k = some v := by
          rw [Dict.get_update_ok hok, hv]; rfl
        rw [hdata, dget_fullDict (Dict.ok_update (dump_ok_dict _ _ _ hmd) _)]
        exact dget_of_get hget

/-- C68: extra members that do not name a number of the key do not change the key. -/
theorem C68_parse_same_key (cr : Crypto) (raw : Bytes) (alg : PyStr) (pub : Bool) (pw : Option Bytes) (format : PyStr)
    (options : Dict PyStr Val) (hok : Dict.Ok options) (key : Jwk) (h : Jwk.parse cr raw alg pub pw format [] = .ok key)
    (hx : Extra key.mat options) : ∃ key', Jwk.parse cr raw alg pub pw format options = .ok key' ∧ key'.mat = key.mat := by
  unfold Jwk.parse at h ⊢
  split at h
  · cases h
  · rename_i K hK
    split at h
    · cases h
    · rename_i m hm
      split at h
      · cases h
      · rename_i md hmd
        obtain ⟨d, e, hdata, hkty, hmat⟩ := jwkInit_ok.mp h
        have : d = md := by cases e; rfl
        subst this
        have hget : ∀ k ∈ py! "self" :: py! "kty" :: keyMembers key.mat, Dict.get (Dict.update d options) k = Dict.get d k := by
          intro k hk
          rw [Dict.get_update_ok hok, hx k hk]; rfl
        refine ⟨⟨fullDict (Dict.update d options), key.mat⟩, jwkInit_ok.mpr ⟨_, rfl, rfl, ?_, ?_⟩, rfl⟩
        · rw [← hkty]
          unfold dget
          rw [hget _ (by simp)]
        · rw [← hmat]
          apply materialInit_congr
          intro n hn
          apply hget
          rw [keyMembers_eq]
          rcases List.mem_cons.mp hn with h | h
          · simp [h]
          · simp [h]

/-- What may be asked of `JsonWebKey.generate`, and the key that is meant: at least 32 bytes of a secret, at least 512 bits of
an RSA modulus, or one of the three curves. Without size (or with the size 0), 32 bytes and 2048 bits are drawn. The public
exponent is 65537. -/
inductive Requested (f : Fresh) : PyStr → Option (Nat ⊕ PyStr) → Material → Prop
  | oct : Requested f (py! "oct") none (.oct (f.oct 32))
  | octZero : Requested f (py! "oct") (some (.inl 0)) (.oct (f.oct 32))
  | octSize (n : Nat) (h : 32 ≤ n) : Requested f (py! "oct") (some (.inl n)) (.oct (f.oct n))
  | ec (c : Curve) (x y d : Nat) (h : f.ec c = (x, y, d)) : Requested f (py! "EC") (some (.inr c.name)) (.ec c x y (some d))
  | rsa (n e : Nat) (r : RsaPriv) (h : f.rsa 65537 2048 = .ok (n, e, r)) : Requested f (py! "RSA") none (.rsa n e (some r))
  | rsaZero (n e : Nat) (r : RsaPriv) (h : f.rsa 65537 2048 = .ok (n, e, r)) :
      Requested f (py! "RSA") (some (.inl 0)) (.rsa n e (some r))
  | rsaSize (n e : Nat) (r : RsaPriv) (size : Nat) (hs : 512 ≤ size) (h : f.rsa 65537 size = .ok (n, e, r)) :
      Requested f (py! "RSA") (some (.inl size)) (.rsa n e (some r))

theorem materialGenerate_requested {cr : Crypto} {alg : PyStr} {option : Option (Nat ⊕ PyStr)} {fresh : Fresh} {m : Material}
    (hr : Requested fresh alg option m) (hz : NoZero m) (hv : m.Valid cr) :
    Kty.ofName alg = some m.kty ∧
      materialGenerate cr m.kty (if optTruthy option then option else none) fresh = .ok m := by
  have hoct : ∀ s : Bytes, octInit cr [(py! "k", .str (toStringB (b64urlEncode s)))] = .ok (.oct s) :=
    fun s => octInit_canon rfl rfl
  have hrsa : ∀ (n e : Nat) (r : RsaPriv), NoZero (.rsa n e (some r)) → (Material.rsa n e (some r)).Valid cr →
      rsaInit cr (rsaArgs n e (some r)) = .ok (.rsa n e (some r)) := by
    intro n e r hz hv
    obtain ⟨h1, h2, h3⟩ := pos_of_noZero hz
    exact rsaInit_canon rfl rfl rfl h1 h2 hv.1 (Or.inr ⟨r, rfl, h3 r rfl, rfl, rfl, rfl, rfl, rfl, rfl, hv.2 r rfl⟩)
  have hsize : ∀ n, 0 < n → optTruthy (some (.inl n)) = true := by
    intro n hn
    simp [optTruthy]
    omega
  cases hr with
  | oct => exact ⟨rfl, hoct _⟩
  | octZero => exact ⟨rfl, hoct _⟩
  | octSize n h =>
    refine ⟨rfl, ?_⟩
    rw [hsize n (by omega), if_pos rfl]
    simp only [Material.kty, materialGenerate]
    rw [if_neg (by omega)]
    exact hoct _
  | ec c x y d h =>
    refine ⟨rfl, ?_⟩
    have : optTruthy (some (.inr c.name)) = true := by cases c <;> rfl
    rw [this, if_pos rfl]
    simp only [Material.kty, materialGenerate, Curve.ofName_name, h]
    obtain ⟨h1, h2, h3⟩ := pos_of_noZero hz
    exact ecInit_canon rfl rfl rfl rfl h1 h2 hv.1 (Or.inr ⟨d, rfl, h3 d rfl, rfl, hv.2 d rfl⟩)
  | rsa n e r h =>
    refine ⟨rfl, ?_⟩
    show materialGenerate cr .rsa none fresh = _
    simp only [materialGenerate, h]
    exact hrsa n e r hz hv
  | rsaZero n e r h =>
    refine ⟨rfl, ?_⟩
    show materialGenerate cr .rsa none fresh = _
    simp only [materialGenerate, h]
    exact hrsa n e r hz hv
  | rsaSize n e r size hs h =>
    refine ⟨rfl, ?_⟩
    rw [hsize size (by omega), if_pos rfl]
    simp only [Material.kty, materialGenerate, h]
    rw [if_neg (by omega)]
    exact hrsa n e r hz hv

/-- C68: `JsonWebKey.generate` makes the fresh key that was asked for, private part included, together with the members
passed to it. -/
theorem C68_generate (cr : Crypto) (alg : PyStr) (option : Option (Nat ⊕ PyStr)) (fresh : Fresh) (m : Material)
    (hr : Requested fresh alg option m) (hz : NoZero m) (hv : m.Valid cr) (params : Dict PyStr Val) (hok : Dict.Ok params)
    (hx : Extra m params) :
    ∃ key, Jwk.generate cr alg option fresh params = .ok key ∧ key.mat = m ∧ HasSecretPart m ∧
      dget key.data (py! "kty") = .str alg ∧ ∀ k v, Dict.get params k = some v → dget key.data k = v := by
  obtain ⟨h1, h2⟩ := materialGenerate_requested hr hz hv
  have hsec : HasSecretPart m := by cases hr <;> simp [HasSecretPart]
  obtain ⟨md, hmd⟩ : ∃ md, m.dump false = .ok md := by
    cases hr <;> exact ⟨_, rfl⟩
  have hmok := dump_ok_dict _ _ _ hmd
  have huok := Dict.ok_update hmok params
  have hself : Dict.get (fullDict (Dict.update md params)) (py! "self") = none := by
    apply get_fullDict_none
    rw [Dict.get_update_ok hok, hx _ (by simp), dump_names hmd (by cases m <;> simp [Material.kty, Kty.allowed])]
    rfl
  have hsome : ∀ k w, Dict.get md k = some w → w ≠ .none := by
    intro k w hw e
    subst e
    have := Dict.mem_of_get hw
    cases hr <;> cases hmd <;> simp [numVal] at this
  have hin : Jwk.init cr (.dict (fullDict (Dict.update md params))) =
      .ok ⟨fullDict (fullDict (Dict.update md params)), if false = true then m.toPublic else m⟩ := by
    refine load_members hmd hv (pos_of_noZero hz) hself ?_
    intro k hk
    have hu : Dict.get (Dict.update md params) k = Dict.get md k := by
      rw [Dict.get_update_ok hok, hx k (List.mem_cons_of_mem _ (by rw [keyMembers_eq]; exact hk))]; rfl
    cases hg : Dict.get md k with
    | none => exact get_fullDict_none (hu.trans hg)
    | some w => exact get_fullDict_some (hu.trans hg) (hsome k w hg)
  have hgen : Jwk.generate cr alg option fresh params = .ok ⟨fullDict (fullDict (Dict.update md params)), m⟩ := by
    unfold Jwk.generate
    rw [h1]
    dsimp only
    rw [h2]
    dsimp only
    rw [hmd]
    exact hin
  refine ⟨_, hgen, rfl, hsec, ?_, ?_⟩
  · dsimp only
    rw [dget_fullDict (ok_fullDict huok), dget_fullDict huok]
    apply dget_of_get
    rw [Dict.get_update_ok hok, hx _ (by simp), dump_kty hmd]
    cases hr <;> rfl
  · intro k v hkv
    dsimp only
    rw [dget_fullDict (ok_fullDict huok), dget_fullDict huok]
    apply dget_of_get
    rw [Dict.get_update_ok hok, hkv]; rfl

/-- C68: nothing else is made: an unknown type, a secret of less than 32 bytes, a modulus of less than 512 bits, an unknown
curve or none. -/
theorem C68_generate_refused (cr : Crypto) (fresh : Fresh) (params : Dict PyStr Val) :
    (∀ alg option, alg ≠ py! "oct" → alg ≠ py! "EC" → alg ≠ py! "RSA" →
      Jwk.generate cr alg option fresh params = .error (.jose .unsupportedAlgorithm)) ∧
    (∀ n, 0 < n → n < 32 →
      Jwk.generate cr (py! "oct") (some (.inl n)) fresh params = .error (.jose .invalidKey)) ∧
    (∀ size, 0 < size → size < 512 →
      Jwk.generate cr (py! "RSA") (some (.inl size)) fresh params = .error (.jose .invalidKey)) ∧
    (∀ name, name ≠ [] → (∀ c : Curve, name ≠ c.name) →
      Jwk.generate cr (py! "EC") (some (.inr name)) fresh params = .error (.jose .invalidKey)) ∧
    Jwk.generate cr (py! "EC") none fresh params = .error .typeErr := by
  refine ⟨?_, ?_, ?_, ?_, ?_⟩
  · intro alg option h1 h2 h3
    unfold Jwk.generate
    have : Kty.ofName alg = none := by
      unfold Kty.ofName
      simp [h1, h2, h3]
    rw [this]
  · intro n h0 h1
    have h2 : (n == 0) = false := by simp; omega
    simp only [Jwk.generate, show Kty.ofName (py! "oct") = some .oct from rfl, optTruthy, bne, h2, Bool.not_false, if_true,
      materialGenerate, h1]
  · intro size h0 h1
    have h2 : (size == 0) = false := by simp; omega
    simp only [Jwk.generate, show Kty.ofName (py! "RSA") = some .rsa from rfl, optTruthy, bne, h2, Bool.not_false, if_true,
      materialGenerate, h1]
  · intro name h0 h1
    have h2 : Curve.ofName name = none := by
      cases hc : Curve.ofName name with
      | none => rfl
      | some c => exact absurd (Curve.ofName_some hc) (h1 c)
    have h3 : name.isEmpty = false := by cases name with
      | nil => exact absurd rfl h0
      | cons => rfl
    simp only [Jwk.generate, show Kty.ofName (py! "EC") = some .ec from rfl, optTruthy, h3, Bool.not_false, if_true,
      materialGenerate, h2]
  · rfl

/-- Random material with the sizes that were asked for. -/
def toyFresh : Fresh where
  oct n := List.replicate n 7
  ec _ := (5, 5, 5)
  rsa e size := .ok (2 ^ size - 1, e, ⟨3, 2 ^ size - 1, 1, 1, 1, 1⟩)

/-- The hypotheses can be met. -/
example : Requested toyFresh (py! "EC") (some (.inr (py! "P-256"))) (.ec .p256 5 5 (some 5)) ∧
    NoZero (.ec .p256 5 5 (some 5)) ∧ (Material.ec .p256 5 5 (some 5)).Valid toyCrypto ∧
    Extra (.ec .p256 5 5 (some 5)) [(py! "kid", .str (py! "a"))] := by
  refine ⟨.ec .p256 5 5 5 rfl, by simp [NoZero], ⟨rfl, ?_⟩, ?_⟩
  · intro n h; cases h; rfl
  · intro k hk
    simp only [keyMembers, List.mem_cons, List.not_mem_nil, or_false] at hk
    rcases hk with h | h | h | h | h | h <;> subst h <;> rfl

example : ∃ key, Jwk.parse toyCrypto (by! "PRIVATE") (py! "EC") true none (py! "pem") [(py! "kid", .str (py! "a"))] = .ok key ∧
    dget key.data (py! "kid") = .str (py! "a") := ⟨_, rfl, rfl⟩

end Psion.Props
