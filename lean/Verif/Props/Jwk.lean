import Verif.Jose.DumpLemmas
import Verif.Props.Jws

/-!
# Properties C13 – C18: Json Web Keys (`/repo/src/psion/jose/jwk.py`, `/repo/src/psion/jose/jwa/jwk.py`)
-/

namespace Psion.Props

open Psion Psion.Spec

theorem pos_of_noZero {m : Material} (h : NoZero m) : m.Pos := by
  cases m with
  | oct s => trivial
  | ec c x y d =>
    obtain ⟨h1, h2, h3⟩ := h
    refine ⟨Nat.pos_of_ne_zero h1, Nat.pos_of_ne_zero h2, ?_⟩
    rintro n rfl
    exact Nat.pos_of_ne_zero (fun hn => h3 (by rw [hn]))
  | rsa n e p =>
    obtain ⟨h1, h2, h3⟩ := h
    refine ⟨Nat.pos_of_ne_zero h1, Nat.pos_of_ne_zero h2, ?_⟩
    intro r hr
    obtain ⟨a, b, c, d, e, f⟩ := h3 r hr
    exact ⟨Nat.pos_of_ne_zero a, Nat.pos_of_ne_zero b, Nat.pos_of_ne_zero c, Nat.pos_of_ne_zero d,
      Nat.pos_of_ne_zero e, Nat.pos_of_ne_zero f⟩

theorem toPublic_eq (m : Material) : m.toPublic = publicPart m := by cases m <;> rfl

theorem keyMembers_eq (m : Material) : keyMembers m = m.kty.allowed := by cases m <;> rfl

theorem ok_fullDict {d : Dict PyStr Val} (h : Dict.Ok d) : Dict.Ok (fullDict d) := Dict.ok_filter h _

/-- The data of a loaded key have distinct names, like those they were loaded from. -/
theorem data_ok {cr : Crypto} {d0 : Dict PyStr Val} {key : Jwk} (hk : Jwk.init cr (.dict d0) = .ok key)
    (h0 : Dict.Ok d0) : Dict.Ok key.data := by
  obtain ⟨d, hd, h, -⟩ := jwkInit_ok.mp hk
  cases hd
  rw [h]; exact ok_fullDict h0

theorem dump_exists {key : Jwk} (h : HasSecretPart key.mat) : ∃ d, key.dump false = .ok d := by
  obtain ⟨kd, m⟩ := key
  unfold Jwk.dump
  cases m with
  | oct s => exact ⟨_, rfl⟩
  | ec c x y d =>
    cases d with
    | none => exact absurd rfl h
    | some d => exact ⟨_, rfl⟩
  | rsa n e p =>
    cases p with
    | none => exact absurd rfl h
    | some p => exact ⟨_, rfl⟩

theorem dump_public_exists (key : Jwk) : ∃ d, key.dump true = .ok d := by
  obtain ⟨kd, m⟩ := key
  unfold Jwk.dump
  cases m <;> exact ⟨_, rfl⟩

theorem dump_mat {key : Jwk} {pub : Bool} {d : Dict PyStr Val} (h : key.dump pub = .ok d) :
    ∃ md, key.mat.dump pub = .ok md := by
  unfold Jwk.dump at h
  split at h
  · cases h
  · exact ⟨_, by assumption⟩

/-- Additional members survive a dump. -/
theorem extra_kept {key : Jwk} {pub : Bool} {d : Dict PyStr Val} (hok : Dict.Ok key.data)
    (hd : key.dump pub = .ok d) {k : PyStr} (hk : k ∉ keyMembers key.mat) (hkty : k ≠ py! "kty") :
    Dict.get d k = Dict.get key.data k := by
  obtain ⟨md, hm⟩ := dump_mat hd
  rw [get_dump hm hd hok, if_neg (by rw [← keyMembers_eq]; exact hk)]
  have : Dict.get md k = none := by
    rw [Dict.get_eq_none_iff]
    intro hmem
    apply hk
    obtain ⟨kd, m⟩ := key
    simp only at hm ⊢
    cases m with
    | oct s =>
      simp only [Material.dump] at hm
      cases hm
      simp only [Dict.keys, List.map_cons, List.map_nil, List.mem_cons, List.not_mem_nil, or_false] at hmem
      rcases hmem with h | h
      · exact absurd h hkty
      · simp [keyMembers, h]
    | ec c x y o =>
      simp only [Material.dump] at hm
      have : k ∈ [py! "kty", py! "crv", py! "x", py! "y", py! "d"] := by
        split at hm
        · cases hm
          simp only [Dict.keys, List.map_cons, List.map_nil, List.mem_cons, List.not_mem_nil, or_false] at hmem
          rcases hmem with h | h | h | h <;> simp [h]
        · split at hm
          · cases hm
          · cases hm
            simpa [Dict.keys] using hmem
      simp only [List.mem_cons, List.not_mem_nil, or_false] at this
      simp only [keyMembers, List.mem_cons, List.not_mem_nil, or_false]
      rcases this with h | h
      · exact absurd h hkty
      · exact h
    | rsa n e o =>
      simp only [Material.dump] at hm
      have : k ∈ [py! "kty", py! "n", py! "e", py! "d", py! "p", py! "q", py! "dp", py! "dq", py! "qi"] := by
        split at hm
        · cases hm
          simp only [Dict.keys, List.map_cons, List.map_nil, List.mem_cons, List.not_mem_nil, or_false] at hmem
          rcases hmem with h | h | h <;> simp [h]
        · split at hm
          · cases hm
          · cases hm
            simpa [Dict.keys] using hmem
      simp only [List.mem_cons, List.not_mem_nil, or_false] at this
      simp only [keyMembers, List.mem_cons, List.not_mem_nil, or_false]
      rcases this with h | h
      · exact absurd h hkty
      · exact h
  rw [this]; rfl

theorem kty_kept {key : Jwk} {pub : Bool} {d : Dict PyStr Val} (hd : key.dump pub = .ok d)
    (hok : Dict.Ok key.data) : Dict.get d (py! "kty") = some (.str key.mat.kty.name) := by
  obtain ⟨md, hm⟩ := dump_mat hd
  rw [get_dump hm hd hok]
  obtain ⟨kd, m⟩ := key
  simp only at hm ⊢
  cases m with
  | oct s => simp only [Material.dump] at hm; cases hm; rfl
  | ec c x y o =>
    simp only [Material.dump] at hm
    split at hm
    · cases hm; rfl
    · split at hm
      · cases hm
      · cases hm; rfl
  | rsa n e o =>
    simp only [Material.dump] at hm
    split at hm
    · cases hm; rfl
    · split at hm
      · cases hm
      · cases hm; rfl

/-- All additional members, and the type, of the reloaded key agree with the original. -/
theorem extra_reloaded {cr : Crypto} {d0 : Dict PyStr Val} {key : Jwk} {pub : Bool}
    {d : Dict PyStr Val} (hk : Jwk.init cr (.dict d0) = .ok key) (h0 : Dict.Ok d0)
    (hd : key.dump pub = .ok d) {k : PyStr} (hm : k ∉ keyMembers key.mat) :
    dget (fullDict d) k = dget key.data k := by
  have hok := data_ok hk h0
  by_cases hkty : k = py! "kty"
  · subst hkty
    rw [(keyInv_of_init hk).kty]
    exact dget_of_get (get_fullDict_some (kty_kept hd hok) (by simp))
  · have hg := extra_kept hok hd hm hkty
    cases hv : Dict.get key.data k with
    | none =>
      rw [hv] at hg
      unfold dget
      rw [hv, get_fullDict_none hg]
    | some v =>
      have hne : v ≠ .none := by
        rintro rfl
        obtain ⟨d', hd', h, -⟩ := jwkInit_ok.mp hk
        have := Dict.mem_of_get hv
        rw [h] at this
        unfold fullDict at this
        simp [Val.isNone] at this
      rw [hv] at hg
      rw [dget_of_get (get_fullDict_some hg hne), dget_of_get hv]

/-! ## C13 -/

/-- C13, exact form: for a key loaded from a dictionary, the private dump can be loaded again to the
same key object with the same additional members if and only if the key has a private part and no number of it
is zero. The property as stated has no condition, see `C13_reload_refuted`. -/
theorem C13_reload_partial (cr : Crypto) (d0 : Dict PyStr Val) (h0 : Dict.Ok d0) (key : Jwk)
    (hk : Jwk.init cr (.dict d0) = .ok key) :
    (∃ d key', key.dump false = .ok d ∧ Jwk.init cr (.dict d) = .ok key' ∧ key'.mat = key.mat ∧
      ∀ k, k ∉ keyMembers key.mat → dget key'.data k = dget key.data k) ↔
    (HasSecretPart key.mat ∧ NoZero key.mat) := by
  constructor
  · rintro ⟨d, key', hd, hk', hmat, -⟩
    obtain ⟨md, hm⟩ := dump_mat hd
    have hok := data_ok hk h0
    have GA := fun k => get_dump_allowed (k := k) hm hd hok
    obtain ⟨d', hd', -, -, hinit⟩ := jwkInit_ok.mp hk'
    cases hd'
    rw [hmat] at hinit
    clear hk' hmat hk hd hok
    obtain ⟨kd, m⟩ := key
    simp only at *
    have z : ∀ {k : PyStr} {n : Nat} {o : Option Nat}, Dict.get d k = some (numVal n) →
        b64ToIntV (dget d k) = .ok o → n ≠ 0 := by
      rintro k n o hg hb rfl
      rw [dget_of_get hg, b64ToIntV_numVal_zero] at hb
      cases hb
    cases m with
    | oct s => exact ⟨trivial, trivial⟩
    | ec c x y o =>
      simp only [Material.dump, Bool.false_eq_true, if_false] at hm
      split at hm
      · cases hm
      · rename_i n
        cases hm
        obtain ⟨c', x', y', o', he, -, hx, hy, -, ho⟩ := ecInit_ok hinit
        cases he
        have gd := GA (py! "d") (by simp [Material.kty, Kty.allowed])
        refine ⟨by simp [HasSecretPart], z (GA (py! "x") (by simp [Material.kty, Kty.allowed])) hx,
          z (GA (py! "y") (by simp [Material.kty, Kty.allowed])) hy, ?_⟩
        intro hn
        cases hn
        rcases ho with ⟨-, ho⟩ | ⟨n, ho, -⟩
        · cases ho
        · have : Dict.get d (py! "d") = some (numVal 0) := gd
          rw [dget_of_get this] at ho
          exact absurd ho (by decide +kernel)
    | rsa n e o =>
      simp only [Material.dump, Bool.false_eq_true, if_false] at hm
      split at hm
      · cases hm
      · rename_i r
        cases hm
        obtain ⟨n', e', o', he, hn, he', -, ho⟩ := rsaInit_ok hinit
        cases he
        refine ⟨by simp [HasSecretPart], z (GA (py! "n") (by simp [Material.kty, Kty.allowed])) hn,
          z (GA (py! "e") (by simp [Material.kty, Kty.allowed])) he', ?_⟩
        intro r' hr'
        cases hr'
        rcases ho with ⟨-, ho⟩ | ⟨r', ht, hp, -, ho⟩
        · cases ho
        · cases ho
          unfold rsaPrivate at hp
          obtain ⟨vd, hvd, hp⟩ := bind_ok_iff.mp hp
          obtain ⟨vp, hvp, hp⟩ := bind_ok_iff.mp hp
          obtain ⟨vq, hvq, hp⟩ := bind_ok_iff.mp hp
          obtain ⟨vdp, hvdp, hp⟩ := bind_ok_iff.mp hp
          obtain ⟨vdq, hvdq, hp⟩ := bind_ok_iff.mp hp
          obtain ⟨vqi, hvqi, hp⟩ := bind_ok_iff.mp hp
          refine ⟨?_, z (GA (py! "p") (by simp [Material.kty, Kty.allowed])) hvp,
            z (GA (py! "q") (by simp [Material.kty, Kty.allowed])) hvq,
            z (GA (py! "dp") (by simp [Material.kty, Kty.allowed])) hvdp,
            z (GA (py! "dq") (by simp [Material.kty, Kty.allowed])) hvdq,
            z (GA (py! "qi") (by simp [Material.kty, Kty.allowed])) hvqi⟩
          intro hz
          have : Dict.get d (py! "d") = some (numVal r.d) := GA (py! "d") (by simp [Material.kty, Kty.allowed])
          rw [dget_of_get this, hz] at ht
          exact absurd ht (by decide +kernel)
  · rintro ⟨hs, hz⟩
    obtain ⟨d, hd⟩ := dump_exists hs
    have := reload hk (data_ok hk h0) (pos_of_noZero hz) hd
    exact ⟨d, _, hd, this, rfl, fun k hk' => extra_reloaded hk h0 hd hk'⟩

example : HasSecretPart ecKey.mat ∧ NoZero ecKey.mat := by
  simp [ecKey, HasSecretPart, NoZero]

example : ecKey.dump false = .ok ecKey.data := by rfl

/-- C13 is false, whatever the primitives are: the private dump of every EC or RSA key without private
part raises `RuntimeError`; and whenever a key pair with a zero coordinate is accepted (on P-256 there is a point
with x = 0), its dump cannot be loaded. -/
theorem C13_reload_refuted :
    (∀ kd c x y, Jwk.dump ⟨kd, .ec c x y none⟩ false = .error .runtimeErr) ∧
    (∀ kd n e, Jwk.dump ⟨kd, .rsa n e none⟩ false = .error .runtimeErr) ∧
    (Jwk.init toyCrypto (.dict ecPubKey.data) = .ok ecPubKey) ∧
    (∀ cr : Crypto, ∀ y d, 0 < y → 0 < d → cr.ecPubOk .p256 0 y = true → cr.ecPrivOk .p256 0 y d = true →
      ∃ key dump, Jwk.init cr (.dict [(py! "kty", .str (py! "EC")), (py! "crv", .str (py! "P-256")),
          (py! "x", .str (py! "AA")), (py! "y", numVal y), (py! "d", numVal d)]) = .ok key ∧
        key.mat = .ec .p256 0 y (some d) ∧ key.dump false = .ok dump ∧
        Jwk.init cr (.dict dump) = .error .valueErr) := by
  refine ⟨fun _ _ _ _ => rfl, fun _ _ _ => rfl, rfl, ?_⟩
  intro cr y d hy hd h1 h2
  have hx : b64ToIntV (.str (py! "AA")) = .ok (some 0) := by decide +kernel
  refine ⟨⟨[(py! "kty", .str (py! "EC")), (py! "crv", .str (py! "P-256")),
          (py! "x", .str (py! "AA")), (py! "y", numVal y), (py! "d", numVal d)],
          .ec .p256 0 y (some d)⟩, _, ?_, rfl, rfl, ?_⟩
  · refine jwkInit_ok.mpr ⟨_, rfl, ?_, rfl, ?_⟩
    · rfl
    · show ecInit cr _ = _
      unfold ecInit arg dget
      simp only [Dict.mem, Dict.get_cons, Dict.get_nil]
      simp [hx, b64ToIntV_numVal hy, b64ToNat_numVal hd, numVal_truthy hd, h1, h2, Val.hashable, Curve.ofName,
        ok_bind]
      rfl
  · have hb : b64ToIntV (numVal 0) = .error .valueErr := b64ToIntV_numVal_zero
    show Jwk.init cr (.dict [(py! "kty", .str (py! "EC")), (py! "crv", .str (py! "P-256")),
          (py! "x", numVal 0), (py! "y", numVal y), (py! "d", numVal d)]) = _
    unfold Jwk.init
    simp only [dget, Dict.get_cons, if_true, Option.getD_some]
    have : Kty.ofName (py! "EC") = some .ec := rfl
    rw [this]
    have : ecInit cr [(py! "kty", .str (py! "EC")), (py! "crv", .str (py! "P-256")),
          (py! "x", numVal 0), (py! "y", numVal y), (py! "d", numVal d)] = .error .valueErr := by
      unfold ecInit arg dget
      simp only [Dict.mem, Dict.get_cons, Dict.get_nil]
      simp [hb, Val.hashable, Curve.ofName, ok_bind, error_bind]
    simp [materialInit, this]

/-- The public dump of a key reloads to its public part, with the same additional members. -/
theorem C13_public_reload (cr : Crypto) (d0 : Dict PyStr Val) (h0 : Dict.Ok d0) (key : Jwk)
    (hk : Jwk.init cr (.dict d0) = .ok key) (hz : NoZero key.mat) :
    ∃ d key', key.dump true = .ok d ∧ Jwk.init cr (.dict d) = .ok key' ∧
      key'.mat = publicPart key.mat ∧
      ∀ k, k ∉ keyMembers key.mat → dget key'.data k = dget key.data k := by
  obtain ⟨d, hd⟩ := dump_public_exists key
  have := reload hk (data_ok hk h0) (pos_of_noZero hz) hd
  refine ⟨d, _, hd, this, ?_, fun k hk' => extra_reloaded hk h0 hd hk'⟩
  simp [toPublic_eq]

example : ecKey.dump true = .ok ecPubKey.data := by rfl

/-- The published key restricts its use like the key itself. -/
theorem published_same {cr : Crypto} {v v' : Val} {sk vk : Jwk} (hk : Jwk.init cr v = .ok sk) (hvk : Jwk.init cr v' = .ok vk)
    (hmat : vk.mat = publicPart sk.mat) (hextra : ∀ k, k ∉ keyMembers sk.mat → dget vk.data k = dget sk.data k) :
    SameRestrictions sk vk := by
  intro k hk'
  by_cases hm : k ∈ keyMembers sk.mat
  · have hi := keyInv_of_init hk
    have hi' := keyInv_of_init hvk
    obtain ⟨kd, m⟩ := sk
    simp only at hm hmat hi ⊢
    simp only [List.mem_cons, List.not_mem_nil, or_false] at hk'
    cases m with
    | oct s =>
      simp only [keyMembers, List.mem_cons, List.not_mem_nil, or_false] at hm
      subst hm
      simp at hk'
    | ec c x y o =>
      simp only [keyMembers, List.mem_cons, List.not_mem_nil, or_false] at hm
      rcases hm with rfl | rfl | rfl | rfl
      · rw [hi.crv c x y o rfl, hi'.crv c x y none hmat]
      all_goals simp at hk'
    | rsa n e o =>
      simp only [keyMembers, List.mem_cons, List.not_mem_nil, or_false] at hm
      rcases hm with rfl | rfl | rfl | rfl | rfl | rfl | rfl | rfl <;> simp at hk'
  · exact (hextra k hm).symm

/-- C19 for a published key: a token signed with a key is accepted with the key loaded from its
public dump. -/
theorem C19_public_dump_verifies (cr : Crypto) (hf : FloatLaws cr.fe) (hv : Val) (h : JwsHeader)
    (hh : JwsHeader.init hv = .ok h) (hwf : (Val.dict h.data).Wf) (payload : Bytes)
    (d0 : Dict PyStr Val) (h0 : Dict.Ok d0) (sk : Jwk) (hk : Jwk.init cr (.dict d0) = .ok sk)
    (hz : NoZero sk.mat) (hpair : GenuinePair cr sk.mat (publicPart sk.mat)) (seed : Nat) (tok : Bytes)
    (hs : Jws.serialize cr ⟨h, payload⟩ sk seed = .ok tok) (a : PyStr)
    (ha : dget h.data (py! "alg") = .str a) :
    ∃ d vk, sk.dump true = .ok d ∧ Jwk.init cr (.dict d) = .ok vk ∧
      Jws.deserialize cr tok vk (some a) true = .ok ⟨h, payload⟩ := by
  obtain ⟨d, vk, hd, hvk, hmat, hextra⟩ := C13_public_reload cr d0 h0 sk hk hz
  exact ⟨d, vk, hd, hvk, C19_jws_roundtrip cr hf hv h hh hwf payload sk vk seed tok hs (by rw [hmat]; exact hpair)
    (published_same hk hvk hmat hextra) _ (Or.inr ⟨a, rfl, ha⟩)⟩

example : GenuinePair toyCrypto ecKey.mat (publicPart ecKey.mat) := by
  intro h pad msg seed sig hs
  cases pad with
  | some p => simp [Material.sign, ecKey] at hs
  | none =>
    simp only [Material.sign, ecKey, toyCrypto, Except.ok.injEq] at hs
    subst hs
    simp [Material.verify, ecKey, publicPart, toyCrypto]

/-! ## C14 -/

/-- C14 for EC and RSA keys: no member with a private number occurs in the public dump (the RSA member
`oth` excepted). -/
theorem C14_public_dump_partial (cr : Crypto) (d0 : Dict PyStr Val) (h0 : Dict.Ok d0) (key : Jwk)
    (hk : Jwk.init cr (.dict d0) = .ok key) (hasym : ∀ s, key.mat ≠ .oct s) (d : Dict PyStr Val)
    (hd : key.dump true = .ok d) :
    ∀ k ∈ privateMembers key.mat, k ≠ py! "oth" → Dict.get d k = none := by
  obtain ⟨md, hm⟩ := dump_mat hd
  have hok := data_ok hk h0
  have G := get_dump hm hd hok
  clear hk hd hok
  obtain ⟨kd, m⟩ := key
  simp only at *
  intro k hk hoth
  rw [G]
  cases m with
  | oct s => exact absurd rfl (hasym s)
  | ec c x y o =>
    simp only [Material.dump, if_true] at hm
    cases hm
    simp only [privateMembers, List.mem_cons, List.not_mem_nil, or_false] at hk
    subst hk
    simp [Material.kty, Kty.allowed, Dict.get_cons]
  | rsa n e o =>
    simp only [Material.dump, if_true] at hm
    cases hm
    simp only [privateMembers, List.mem_cons, List.not_mem_nil, or_false] at hk
    rcases hk with rfl | rfl | rfl | rfl | rfl | rfl | rfl
    all_goals first
      | exact absurd rfl hoth
      | simp [Material.kty, Kty.allowed, Dict.get_cons]

example : ∃ d, ecKey.dump true = .ok d ∧ Dict.get d (py! "d") = none ∧
    Dict.get ecKey.data (py! "d") ≠ none := ⟨_, rfl, rfl, by simp [ecKey, Dict.get_cons]⟩

/-- C14, as noninterference: the public dump of an EC or RSA key is the same for all private parts and for all values of
the members that carry private numbers. Nothing about them can be learnt from it. -/
theorem C14_noninterference (k1 k2 : Jwk) (hpub : publicPart k1.mat = publicPart k2.mat)
    (hdata : k1.data.filter (fun kv => kv.1 ∉ keyMembers k1.mat) =
      k2.data.filter (fun kv => kv.1 ∉ keyMembers k2.mat)) :
    k1.dump true = k2.dump true := by
  obtain ⟨d1, m1⟩ := k1
  obtain ⟨d2, m2⟩ := k2
  simp only [keyMembers_eq] at hpub hdata
  have hd : m1.dump true = m2.dump true := by
    cases m1 <;> cases m2 <;> simp only [publicPart] at hpub <;> cases hpub <;> rfl
  have hk : m1.kty = m2.kty := by
    cases m1 <;> cases m2 <;> simp only [publicPart] at hpub <;> cases hpub <;> rfl
  unfold Jwk.dump
  simp only [hd]
  rw [hdata]

/-- C14 is false: the public dump of every symmetric key contains the whole secret, from which it can be
read back; and the RSA member `oth` (further prime factors) is published. -/
theorem C14_public_dump_refuted :
    (∀ kd s, Dict.Ok kd → ∃ d t b, Jwk.dump ⟨kd, .oct s⟩ true = .ok d ∧ Dict.get d (py! "k") = some (.str t) ∧
      utf8Encode t = .ok b ∧ b64urlDecode b = .ok s) ∧
    (∀ kd n e p v, Dict.Ok kd → Dict.get kd (py! "oth") = some v →
      ∃ d, Jwk.dump ⟨kd, .rsa n e p⟩ true = .ok d ∧ Dict.get d (py! "oth") = some v) := by
  constructor
  · intro kd s hok
    obtain ⟨d, hd⟩ := dump_public_exists ⟨kd, .oct s⟩
    refine ⟨d, toStringB (b64urlEncode s), b64urlEncode s, hd, ?_, ?_, b64_roundtrip s⟩
    · rw [get_dump (key := ⟨kd, .oct s⟩) rfl hd hok]
      rfl
    · rw [toStringB_b64url]; exact utf8Encode_asciiStr (b64url_ascii s)
  · intro kd n e p v hok hv
    obtain ⟨d, hd⟩ := dump_public_exists ⟨kd, .rsa n e p⟩
    refine ⟨d, hd, ?_⟩
    rw [extra_kept (key := ⟨kd, .rsa n e p⟩) hok hd (by simp [keyMembers]) (by decide)]
    exact hv

/-- The dump of a list of keys lists, in order, the dumps of its keys. -/
theorem dumpAll_ok {pub : Bool} : ∀ {keys : List Jwk} {ds : List Val}, dumpAll pub keys = .ok ds →
    ∃ dl : List (Dict PyStr Val), ds = dl.map Val.dict ∧ keys.map (fun k => k.dump pub) = dl.map .ok
  | [], ds, h => by
    simp only [dumpAll] at h
    cases h; exact ⟨[], rfl, rfl⟩
  | k :: ks, ds, h => by
    simp only [dumpAll] at h
    split at h
    · cases h
    · rename_i d hd
      split at h
      · cases h
      · rename_i ds' hds
        cases h
        obtain ⟨dl, rfl, h2⟩ := dumpAll_ok hds
        exact ⟨d :: dl, rfl, by rw [List.map_cons, List.map_cons, hd, h2]⟩

/-- C14 for key sets of EC and RSA keys: the entries of the dump are, in order, the public dumps of the keys and contain
no private number. -/
theorem C14_key_set_partial (cr : Crypto) (keys : List Jwk)
    (hk : ∀ key ∈ keys, (∃ d0, Dict.Ok d0 ∧ Jwk.init cr (.dict d0) = .ok key) ∧ ∀ s, key.mat ≠ .oct s) :
    ∃ dl : List (Dict PyStr Val),
      keySetDump true keys = .ok (.dict [(py! "keys", .list (dl.map .dict))]) ∧
      keys.map (fun k => k.dump true) = dl.map .ok ∧
      ∀ i (hi : i < keys.length) (hi' : i < dl.length),
        ∀ k ∈ privateMembers keys[i].mat, k ≠ py! "oth" → Dict.get dl[i] k = none := by
  have hall : ∃ ds, dumpAll true keys = .ok ds := by
    clear hk
    induction keys with
    | nil => exact ⟨_, rfl⟩
    | cons k ks ih =>
      obtain ⟨ds, hds⟩ := ih
      obtain ⟨d, hd⟩ := dump_public_exists k
      exact ⟨.dict d :: ds, by simp [dumpAll, hd, hds]⟩
  obtain ⟨ds, hds⟩ := hall
  obtain ⟨dl, rfl, hdl⟩ := dumpAll_ok hds
  refine ⟨dl, by simp [keySetDump, hds], hdl, ?_⟩
  intro i hi hi'
  obtain ⟨⟨d0, h0, hinit⟩, hasym⟩ := hk keys[i] (List.getElem_mem hi)
  have : keys[i].dump true = .ok dl[i] := by
    have h1 : (keys.map (fun k => k.dump true))[i]'(by simpa using hi) = keys[i].dump true := by simp
    rw [← h1]
    simp only [hdl, List.getElem_map]
  exact C14_public_dump_partial cr d0 h0 keys[i] hinit hasym _ this

example : (∃ d0, Dict.Ok d0 ∧ Jwk.init toyCrypto (.dict d0) = .ok ecKey) ∧ ∀ s, ecKey.mat ≠ .oct s :=
  ⟨⟨ecKey.data, by unfold Dict.Ok; decide, rfl⟩, by simp [ecKey]⟩

/-! ## C15 -/

/-- The id of a key. -/
def kidOf (k : Jwk) : Val := dget k.data (py! "kid")

theorem dedup_length (l : List Val) : (dedup l).length ≤ l.length := by
  induction l with
  | nil => exact Nat.le_refl _
  | cons v l ih =>
    unfold dedup
    split
    · simp only [List.length_cons]; omega
    · simp only [List.length_cons]; omega

theorem dedup_eq (l : List Val) (h : l.length = (dedup l).length) : dedup l = l := by
  induction l with
  | nil => rfl
  | cons v l ih =>
    have hl := dedup_length l
    unfold dedup at h ⊢
    split at h
    · simp only [List.length_cons] at h; omega
    · simp only [List.length_cons, Nat.add_right_cancel_iff] at h
      rename_i hn
      rw [if_neg hn, ih h]

theorem inList_false_iff {v : Val} {l : List Val} :
    ¬ v.inList l = true ↔ ∀ b ∈ l, b.pyEq v = false := by
  unfold Val.inList
  rw [List.any_eq_true]
  constructor
  · intro h b hb
    cases hbv : b.pyEq v with
    | false => rfl
    | true => exact absurd ⟨b, hb, hbv⟩ h
  · rintro h ⟨b, hb, hbv⟩
    rw [h b hb] at hbv
    cases hbv

theorem dedup_eq_iff (l : List Val) :
    l.length = (dedup l).length ↔ l.Pairwise (fun a b => b.pyEq a = false) := by
  induction l with
  | nil => simp [dedup]
  | cons v l ih =>
    have hl := dedup_length l
    rw [List.pairwise_cons]
    constructor
    · intro h
      unfold dedup at h
      split at h
      · simp only [List.length_cons] at h; omega
      · rename_i hn
        simp only [List.length_cons, Nat.add_right_cancel_iff] at h
        rw [dedup_eq l h] at hn
        exact ⟨inList_false_iff.mp hn, ih.mp h⟩
    · rintro ⟨h1, h2⟩
      have h := ih.mpr h2
      unfold dedup
      rw [if_neg, List.length_cons, List.length_cons, ← h]
      rw [dedup_eq l h]
      exact inList_false_iff.mpr h1

/-- C15: exactly the non-empty lists of keys with pairwise different hashable ids become key sets. -/
theorem C15_key_set (keys ks : List Jwk) :
    keySetInit keys = .ok ks ↔
      ks = keys ∧ keys ≠ [] ∧ (∀ k ∈ keys, kidOf k ≠ .none) ∧
      (∀ k ∈ keys, (∃ b, kidOf k = .bool b) ∨ (∃ i, kidOf k = .int i) ∨ (∃ f, kidOf k = .float f) ∨
        ∃ s, kidOf k = .str s) ∧
      keys.Pairwise (fun a b => (kidOf b).pyEq (kidOf a) = false) := by
  have hpw : (keys.map (fun k => dget k.data (py! "kid"))).length =
      (dedup (keys.map (fun k => dget k.data (py! "kid")))).length ↔
      keys.Pairwise (fun a b => (kidOf b).pyEq (kidOf a) = false) := by
    rw [dedup_eq_iff, List.pairwise_map]; rfl
  unfold keySetInit
  constructor
  · intro h
    split at h
    · cases h
    rename_i hne
    simp only at h
    split at h
    · cases h
    rename_i hnone
    split at h
    · cases h
    rename_i hhash
    split at h
    · cases h
    rename_i hlen
    cases h
    have hn : ∀ k ∈ keys, kidOf k ≠ .none := by
      intro k hk hkn
      apply hnone
      rw [List.any_map, List.any_eq_true]
      exact ⟨k, hk, by simp only [Function.comp, kidOf] at hkn ⊢; rw [hkn]; rfl⟩
    refine ⟨rfl, hne, hn, ?_, hpw.mp (Decidable.not_not.mp hlen)⟩
    intro k hk
    have h1 := hn k hk
    have h2 : (kidOf k).hashable = true := by
      cases hh : (kidOf k).hashable with
      | true => rfl
      | false =>
        exfalso; apply hhash
        rw [List.any_map, List.any_eq_true]
        exact ⟨k, hk, by simp only [Function.comp, kidOf] at hh ⊢; rw [hh]; rfl⟩
    cases hv : kidOf k with
    | none => exact absurd hv h1
    | bool b => simp
    | int i => simp
    | float f => simp
    | str s => simp
    | list l => rw [hv] at h2; cases h2
    | dict d => rw [hv] at h2; cases h2
  · rintro ⟨rfl, hne, hn, ht, hp⟩
    rw [if_neg hne]
    simp only
    rw [if_neg, if_neg, if_neg]
    · exact not_not_intro (hpw.mpr hp)
    · rw [List.any_map, List.any_eq_true]
      rintro ⟨k, hk, h⟩
      have := ht k hk
      unfold kidOf at this
      simp only [Function.comp] at h
      rcases this with ⟨b, e⟩ | ⟨b, e⟩ | ⟨b, e⟩ | ⟨b, e⟩ <;> rw [e] at h <;> simp [Val.hashable] at h
    · rw [List.any_map, List.any_eq_true]
      rintro ⟨k, hk, h⟩
      exact hn k hk (isNone_iff.mp h)

/-- C15, lookup: in a key set, `get_key` of a text returns the one and only key with that id, and `None` exactly if
there is none. -/
theorem C15_get_key (keys ks : List Jwk) (h : keySetInit keys = .ok ks) (kid : PyStr) :
    (∀ k, keySetGet ks (.str kid) = some k ↔ k ∈ ks ∧ kidOf k = .str kid) ∧
    (keySetGet ks (.str kid) = none ↔ ∀ k ∈ ks, kidOf k ≠ .str kid) ∧
    (∀ i j (hi : i < ks.length) (hj : j < ks.length), kidOf ks[i] = .str kid → kidOf ks[j] = .str kid → i = j) := by
  obtain ⟨rfl, -, -, -, hp⟩ := (C15_key_set _ _).mp h
  have uniq : ∀ i j (hi : i < ks.length) (hj : j < ks.length), kidOf ks[i] = .str kid → kidOf ks[j] = .str kid → i = j := by
    intro i j hi hj h1 h2
    rw [List.pairwise_iff_getElem] at hp
    rcases Nat.lt_trichotomy i j with hlt | rfl | hlt
    · have := hp i j hi hj hlt
      rw [h1, h2, pyEq_str.mpr rfl] at this; cases this
    · rfl
    · have := hp j i hj hi hlt
      rw [h1, h2, pyEq_str.mpr rfl] at this; cases this
  have hnone : keySetGet ks (.str kid) = none ↔ ∀ k ∈ ks, kidOf k ≠ .str kid := by
    unfold keySetGet
    rw [List.find?_eq_none]
    constructor
    · intro h k hk he
      exact h k hk (by show (kidOf k).pyEq _ = true; rw [he]; exact pyEq_str.mpr rfl)
    · intro h k hk he
      exact h k hk (pyEq_str.mp he)
  have hsome : ∀ k, keySetGet ks (.str kid) = some k → k ∈ ks ∧ kidOf k = .str kid := by
    intro k hk
    unfold keySetGet at hk
    have hp := List.find?_some hk
    exact ⟨List.mem_of_find?_eq_some hk, pyEq_str.mp hp⟩
  refine ⟨fun k => ⟨hsome k, ?_⟩, hnone, uniq⟩
  rintro ⟨hk, he⟩
  cases hg : keySetGet ks (.str kid) with
  | none => exact absurd he (hnone.mp hg k hk)
  | some k' =>
    obtain ⟨hk', he'⟩ := hsome k' hg
    obtain ⟨i, hi, rfl⟩ := List.mem_iff_getElem.mp hk
    obtain ⟨j, hj, rfl⟩ := List.mem_iff_getElem.mp hk'
    have := uniq i j hi hj he he'
    subst this
    rfl

/-- Two keys with different ids form a set; the same key twice does not. -/
def kidKey (c : Nat) : Jwk :=
  ⟨[(py! "kty", .str (py! "oct")), (py! "k", .str (py! "c2VjcmV0")), (py! "kid", .str [c])], .oct (by! "secret")⟩

example : keySetInit [kidKey 65, kidKey 66] = .ok [kidKey 65, kidKey 66] := by rfl
example : keySetGet [kidKey 65, kidKey 66] (.str [66]) = some (kidKey 66) := by rfl
example : keySetInit [kidKey 65, kidKey 65] = .error (.jose .invalidKeySet) := by rfl
example : keySetInit [octKey] = .error (.jose .invalidKeySet) := by rfl

/-! ## C16 -/

theorem ecParse_kty {cr : Crypto} {raw : Bytes} {pw : Option Bytes} {f : PyStr} {m : Material}
    (h : ecParse cr raw pw f = .ok m) : ∃ d, ecInit cr d = .ok m := by
  unfold ecParse at h
  repeat' split at h
  all_goals first
    | cases h; done
    | exact ⟨_, h⟩

theorem rsaParse_kty {cr : Crypto} {raw : Bytes} {pw : Option Bytes} {f : PyStr} {m : Material}
    (h : rsaParse cr raw pw f = .ok m) : ∃ d, rsaInit cr d = .ok m := by
  unfold rsaParse at h
  repeat' split at h
  all_goals first
    | cases h; done
    | exact ⟨_, h⟩

/-- A key loaded from a dictionary without (a truthy) `d` has no private part. -/
theorem no_private_of_load {cr : Crypto} {d : Dict PyStr Val} {key : Jwk}
    (hk : Jwk.init cr (.dict d) = .ok key) (hd : (dget d (py! "d")).truthy = false)
    (hasym : ∀ s, key.mat ≠ .oct s) : ¬ HasSecretPart key.mat := by
  obtain ⟨d', hd', -, -, hm⟩ := jwkInit_ok.mp hk
  cases hd'
  clear hk
  obtain ⟨kd, m⟩ := key
  simp only at *
  cases m with
  | oct s => exact absurd rfl (hasym s)
  | ec c x y o =>
    obtain ⟨c', x', y', o', he, -, -, -, -, ho⟩ := ecInit_ok hm
    cases he
    rcases ho with ⟨-, rfl⟩ | ⟨n, ht, -⟩
    · simp [HasSecretPart]
    · rw [hd] at ht; cases ht
  | rsa n e o =>
    obtain ⟨n', e', o', he, -, -, -, ho⟩ := rsaInit_ok hm
    cases he
    rcases ho with ⟨-, rfl⟩ | ⟨n, ht, -⟩
    · simp [HasSecretPart]
    · rw [hd] at ht; cases ht

/-- What a key without private part refuses. -/
theorem refuses_of_no_private {key : Jwk} (h : ¬ HasSecretPart key.mat) :
    (∀ cr msg hash pad seed, key.mat.sign cr msg hash pad seed = .error (.jose .invalidKey) ∨
      key.mat.sign cr msg hash pad seed = .error .typeErr) ∧
    key.dump false = .error .runtimeErr := by
  obtain ⟨kd, m⟩ := key
  simp only at h ⊢
  cases m with
  | oct s => exact absurd trivial h
  | ec c x y o =>
    cases o with
    | none =>
      refine ⟨?_, rfl⟩
      intro cr msg hash pad seed
      cases pad with
      | none => exact Or.inl rfl
      | some p => exact Or.inr rfl
    | some n => exact absurd (by simp [HasSecretPart]) h
  | rsa n e o =>
    cases o with
    | none =>
      refine ⟨?_, rfl⟩
      intro cr msg hash pad seed
      cases pad with
      | none => exact Or.inr rfl
      | some p => exact Or.inl rfl
    | some n => exact absurd (by simp [HasSecretPart]) h

/-- With every algorithm except `none`, signing with a key without private part raises `InvalidKey`. -/
theorem alg_sign_refused {cr : Crypto} {key : Jwk} (hi : KeyInv key) (h : ¬ HasSecretPart key.mat)
    (a : JwsAlg) (hne : a ≠ .none) (msg : Bytes) (seed : Nat) :
    a.sign cr msg key seed = .error (.jose .invalidKey) := by
  unfold JwsAlg.sign
  split
  · rename_i hp; exact absurd (params_none.mp hp) hne
  · rename_i hash pad hp
    split
    · rename_i e he
      unfold JwsAlg.validateKey at he
      simp only at he
      split at he
      · cases he; rfl
      · split at he
        · cases he; rfl
        · split at he
          · split at he
            · cases he; rfl
            · cases he
          · cases he
    · rename_i hv
      have hfit := algFits_of_validate hi hne hv
      have : key.mat.sign cr msg hash pad seed = .error (.jose .invalidKey) := by
        have ho := JwsAlg.ofName_name a
        generalize a.name = nm at hfit ho
        generalize key.mat = m at h hfit
        cases hfit with
        | hs256 s => exact absurd trivial h
        | hs384 s => exact absurd trivial h
        | hs512 s => exact absurd trivial h
        | es256 x y d | es384 x y d | es512 x y d =>
          cases ho
          cases hp
          cases d with
          | none => rfl
          | some d => exact absurd (by simp [HasSecretPart]) h
        | rs256 n e d | rs384 n e d | rs512 n e d | ps256 n e d | ps384 n e d | ps512 n e d =>
          cases ho
          cases hp
          cases d with
          | none => rfl
          | some d => exact absurd (by simp [HasSecretPart]) h
      rw [this]

/-- C16: a raw EC or RSA key that is parsed as public, without extra options, has no private part: it never
signs, and its private dump is refused. -/
theorem C16_parse_public (cr : Crypto) (raw : Bytes) (alg : PyStr)
    (halg : alg = py! "EC" ∨ alg = py! "RSA") (pw : Option Bytes) (format : PyStr) (key : Jwk)
    (h : Jwk.parse cr raw alg true pw format [] = .ok key) :
    ¬ HasSecretPart key.mat ∧
    (∀ msg hash pad seed s, key.mat.sign cr msg hash pad seed ≠ .ok s) ∧
    (∀ a : JwsAlg, a ≠ .none → ∀ msg seed, a.sign cr msg key seed = .error (.jose .invalidKey)) ∧
    key.dump false = .error .runtimeErr := by
  have main : ¬ HasSecretPart key.mat ∧ KeyInv key := by
    unfold Jwk.parse at h
    rcases halg with rfl | rfl
    · have : Kty.ofName (py! "EC") = some .ec := rfl
      rw [this] at h
      simp only [materialParse] at h
      split at h
      · cases h
      · rename_i m hm
        obtain ⟨d, hd⟩ := ecParse_kty hm
        obtain ⟨c, x, y, o, rfl, -⟩ := ecInit_ok hd
        have hinit : Jwk.init cr (.dict [(py! "kty", .str (py! "EC")), (py! "crv", .str c.name), (py! "x", numVal x),
          (py! "y", numVal y)]) = .ok key := h
        refine ⟨no_private_of_load hinit rfl ?_, keyInv_of_init hinit⟩
        intro s hs
        obtain ⟨d', hd', -, hkty, -⟩ := jwkInit_ok.mp hinit
        cases hd'
        rw [hs] at hkty
        cases hkty
    · have : Kty.ofName (py! "RSA") = some .rsa := rfl
      rw [this] at h
      simp only [materialParse] at h
      split at h
      · cases h
      · rename_i m hm
        obtain ⟨d, hd⟩ := rsaParse_kty hm
        obtain ⟨n, e, o, rfl, -⟩ := rsaInit_ok hd
        have hinit : Jwk.init cr (.dict [(py! "kty", .str (py! "RSA")), (py! "n", numVal n), (py! "e", numVal e)]) = .ok key := h
        refine ⟨no_private_of_load hinit rfl ?_, keyInv_of_init hinit⟩
        intro s hs
        obtain ⟨d', hd', -, hkty, -⟩ := jwkInit_ok.mp hinit
        cases hd'
        rw [hs] at hkty
        cases hkty
  obtain ⟨hno, hi⟩ := main
  obtain ⟨h1, h2⟩ := refuses_of_no_private hno
  refine ⟨hno, ?_, alg_sign_refused hi hno, h2⟩
  intro msg hash pad seed s hs
  rcases h1 cr msg hash pad seed with h | h <;> rw [h] at hs <;> cases hs


/-- The hypotheses can be met: a private key is read and comes out as public key. -/
example : Jwk.parse toyCrypto (by! "PRIVATE") (py! "EC") true none (py! "pem") [] = .ok ecPubKey := by rfl
example : Jwk.parse toyCrypto (by! "PRIVATE") (py! "EC") false none (py! "pem") [] = .ok ecKey := by rfl

/-! ## C18 -/

/-- C18: a key of type EC or RSA that is loaded without `d` (or with an empty one) raises `InvalidKey` when it is
told to sign with the arguments for its type, never signs at all, raises `InvalidKey` with every algorithm of JWS except
`none`, and no token is ever serialized with it under a header with such an algorithm. -/
theorem C18_public_cannot_sign (cr : Crypto) (d : Dict PyStr Val) (key : Jwk)
    (hk : Jwk.init cr (.dict d) = .ok key)
    (hkty : dget d (py! "kty") = .str (py! "EC") ∨ dget d (py! "kty") = .str (py! "RSA"))
    (hd : (dget d (py! "d")).truthy = false) :
    (∀ msg hash seed, dget d (py! "kty") = .str (py! "EC") →
      key.mat.sign cr msg hash none seed = .error (.jose .invalidKey)) ∧
    (∀ msg hash seed pad, dget d (py! "kty") = .str (py! "RSA") →
      key.mat.sign cr msg hash (some pad) seed = .error (.jose .invalidKey)) ∧
    (∀ msg hash pad seed s, key.mat.sign cr msg hash pad seed ≠ .ok s) ∧
    (∀ a : JwsAlg, a ≠ .none → ∀ msg seed, a.sign cr msg key seed = .error (.jose .invalidKey)) ∧
    (∀ hv h payload seed tok, JwsHeader.init hv = .ok h → dget h.data (py! "alg") ≠ .str (py! "none") →
      Jws.serialize cr ⟨h, payload⟩ key seed ≠ .ok tok) := by
  have hi := keyInv_of_init hk
  have hkind : dget d (py! "kty") = .str key.mat.kty.name := by
    obtain ⟨d', hd', -, h, -⟩ := jwkInit_ok.mp hk
    cases hd'
    exact h
  have hasym : ∀ s, key.mat ≠ .oct s := by
    intro s hs
    rw [hkind, hs] at hkty
    simp [Material.kty, Kty.name] at hkty
  have hno := no_private_of_load hk hd hasym
  obtain ⟨h1, -⟩ := refuses_of_no_private hno
  have hsign := alg_sign_refused (cr := cr) hi hno
  refine ⟨?_, ?_, ?_, hsign, ?_⟩
  · intro msg hash seed he
    rw [hkind] at he
    clear hsign hk hi h1 hkty hkind
    obtain ⟨kd, m⟩ := key
    simp only at *
    cases m with
    | oct s => cases he
    | rsa n e o => cases he
    | ec c x y o =>
      cases o with
      | none => rfl
      | some o => exact absurd (by simp [HasSecretPart]) hno
  · intro msg hash seed pad he
    rw [hkind] at he
    clear hsign hk hi h1 hkty hkind
    obtain ⟨kd, m⟩ := key
    simp only at *
    cases m with
    | oct s => cases he
    | ec c x y o => cases he
    | rsa n e o =>
      cases o with
      | none => rfl
      | some o => exact absurd (by simp [HasSecretPart]) hno
  · intro msg hash pad seed s hs
    rcases h1 cr msg hash pad seed with h | h <;> rw [h] at hs <;> cases hs
  · intro hv h payload seed tok hh halg hs
    obtain ⟨m, s, -, -, hsig, -⟩ := serialize_ok.mp hs
    have hne : h.alg ≠ .none := by
      intro hn
      apply halg
      rw [dget_of_get (header_alg hh), hn]
      rfl
    rw [hsign h.alg hne] at hsig
    cases hsig

example : (Jwk.init toyCrypto (.dict ecPubKey.data) = .ok ecPubKey) ∧
    (dget ecPubKey.data (py! "d")).truthy = false := ⟨rfl, rfl⟩

/-! ## C17 -/

theorem isInfix_mem {needle : Bytes} : ∀ {hay : Bytes}, isInfix needle hay = true → ∀ c ∈ needle, c ∈ hay
  | [], h, c, hc => by
    simp only [isInfix, List.isEmpty_iff] at h
    rw [h] at hc; cases hc
  | a :: s, h, c, hc => by
    simp only [isInfix, Bool.or_eq_true] at h
    rcases h with h | h
    · exact (List.isPrefixOf_iff_prefix.mp h).subset hc
    · exact List.mem_cons_of_mem _ (isInfix_mem h c hc)

theorem b64Char_ne_dash (n : Nat) (h : n < 64) : b64Char n ≠ 45 := by
  intro hc
  have := b64Char_val h
  rw [hc] at this
  have e : ((45 : Byte)).val = 45 := rfl
  rw [e] at this
  repeat' split at this
  all_goals omega

theorem b2a_no_dash (d : Bytes) : (45 : Byte) ∉ b2a d := by
  induction d using b2a.induct with
  | case1 => simp [b2a]
  | case2 a =>
    have := a.isLt
    simp only [b2a, List.mem_cons, List.not_mem_nil, or_false, not_or]
    exact ⟨(b64Char_ne_dash _ (by omega)).symm, (b64Char_ne_dash _ (by omega)).symm, by decide, by decide⟩
  | case3 a b =>
    have := a.isLt; have := b.isLt
    simp only [b2a, List.mem_cons, List.not_mem_nil, or_false, not_or]
    exact ⟨(b64Char_ne_dash _ (by omega)).symm, (b64Char_ne_dash _ (by omega)).symm,
      (b64Char_ne_dash _ (by omega)).symm, by decide⟩
  | case4 a b c rest ih =>
    have := a.isLt; have := b.isLt; have := c.isLt
    simp only [b2a, List.mem_cons, not_or]
    exact ⟨(b64Char_ne_dash _ (by omega)).symm, (b64Char_ne_dash _ (by omega)).symm,
      (b64Char_ne_dash _ (by omega)).symm, (b64Char_ne_dash _ (by omega)).symm, ih⟩

/-- Standard base64 is parsed to the encoded secret (when no file of that name exists). -/
theorem octParse_b2a (cr : Crypto) (s : Bytes) (hfile : cr.readFile (b2a s) = .ok none) :
    octParse cr (b2a s) (py! "pem") = .ok (.oct s) := by
  unfold octParse parseRaw
  rw [hfile]
  simp only [if_true]
  rw [if_neg]
  · unfold a2b
    rw [a2b_b2a]
    exact octInit_canon rfl rfl
  · intro h
    rw [List.any_eq_true] at h
    obtain ⟨n, hn, hi⟩ := h
    apply b2a_no_dash s
    apply isInfix_mem hi
    unfold invalidStrings at hn
    simp only [List.mem_cons, List.not_mem_nil, or_false] at hn
    rcases hn with rfl | rfl | rfl | rfl | rfl | rfl | rfl | rfl <;> decide

/-- Decoding makes texts shorter: four characters give at most three bytes. -/
theorem a2bLoop_length : ∀ (cs : Bytes) (q l p : Nat) (d : Bytes), a2bLoop q l p cs = .ok d →
    4 * d.length ≤ 3 * (cs.filter (fun c => c.val ≠ 61)).length + (if q = 0 then 0 else if 3 ≤ q then 1 else 4 - q)
  | [], q, l, p, d, h => by
    unfold a2bLoop at h
    split at h
    · cases h; simp
    · cases h
  | c :: cs, q, l, p, d, h => by
    unfold a2bLoop at h
    split at h
    · rename_i hc
      have hf : (c :: cs).filter (fun c => decide (c.val ≠ 61)) = cs.filter (fun c => decide (c.val ≠ 61)) := by
        simp [hc]
      rw [hf]
      split at h
      · split at h
        · cases h; simp
        · exact a2bLoop_length cs q l _ d h
      · exact a2bLoop_length cs q l _ d h
    · rename_i hc
      have hf : (c :: cs).filter (fun c => decide (c.val ≠ 61)) =
          c :: cs.filter (fun c => decide (c.val ≠ 61)) := by
        simp [hc]
      rw [hf, List.length_cons]
      split at h
      · have := a2bLoop_length cs q l _ d h
        omega
      · split at h
        · have := a2bLoop_length cs _ _ _ d h
          rw [if_neg (by decide), if_neg (by decide)] at this
          repeat' split
          all_goals omega
        · split at h
          · obtain ⟨d', hd', rfl⟩ := map_ok_iff.mp h
            have := a2bLoop_length cs _ _ _ d' hd'
            rw [List.length_cons]
            rw [if_neg (by decide), if_neg (by decide)] at this
            repeat' split
            all_goals omega
          · split at h
            · obtain ⟨d', hd', rfl⟩ := map_ok_iff.mp h
              have := a2bLoop_length cs _ _ _ d' hd'
              rw [List.length_cons]
              rw [if_neg (by decide), if_pos (by decide)] at this
              repeat' split
              all_goals omega
            · obtain ⟨d', hd', rfl⟩ := map_ok_iff.mp h
              have := a2bLoop_length cs _ _ _ d' hd'
              rw [List.length_cons]
              simp only [if_true] at this
              repeat' split
              all_goals omega

theorem b64urlDecode_length {s d : Bytes} (h : b64urlDecode s = .ok d) : 4 * d.length ≤ 3 * s.length := by
  unfold b64urlDecode a2b at h
  have := a2bLoop_length _ _ _ _ _ h
  simp only [if_true, Nat.add_zero] at this
  refine Nat.le_trans this (Nat.mul_le_mul_left 3 ?_)
  rw [List.map_append, List.filter_append, List.map_replicate, ofUrlsafe_pad, List.length_append]
  have h2 : (List.replicate (s.length % 4) (61 : Byte)).filter (fun c => decide (c.val ≠ 61)) = [] := by
    rw [List.filter_eq_nil_iff]
    intro a ha
    rw [List.mem_replicate] at ha
    rw [ha.2]; decide
  rw [h2, List.length_nil, Nat.add_zero]
  refine Nat.le_trans (List.length_filter_le _ _) ?_
  rw [List.length_map]
  exact Nat.le_refl _

/-- C17 is false for *every* non-empty secret: whenever it can be exported at all, parsing the export gives a
shorter secret (the secret decoded once more). -/
theorem C17_export_refuted (cr : Crypto) (s : Bytes) (hs : s ≠ []) (x : Bytes) (hx : octExport s = .ok x)
    (hfile : cr.readFile x = .ok none) :
    ∃ s', octParse cr x (py! "pem") = .ok (.oct s') ∧ b64urlDecode s = .ok s' ∧ s'.length < s.length ∧
      s' ≠ s := by
  unfold octExport at hx
  split at hx
  · cases hx
  · rename_i b hb
    cases hx
    have hl := b64urlDecode_length hb
    have hpos : 0 < s.length := List.length_pos_iff.mpr hs
    refine ⟨b, octParse_b2a cr b hfile, hb, by omega, ?_⟩
    rintro rfl
    omega

/-- A secret that is exported and comes back wrong, and one whose export raises. -/
example : octExport (by! "secret12") = .ok (by! "secret12") ∧
    octParse toyCrypto (by! "secret12") (py! "pem") = .ok (.oct (List.map byte [177, 231, 43, 122, 221, 118])) := by
  refine ⟨by decide +kernel, ?_⟩
  have e : b2a (List.map byte [177, 231, 43, 122, 221, 118]) = by! "secret12" := by decide +kernel
  have h := octParse_b2a toyCrypto (List.map byte [177, 231, 43, 122, 221, 118]) rfl
  rw [e] at h
  exact h

example : octExport (by! "a") = .error .binascii := by decide +kernel

/-- C17, what does hold: the empty secret survives, and every secret survives if the export is replaced by
plain base64 (`pem`) or by the raw bytes (`der`): `parse` is right, `export` is wrong. -/
theorem C17_export_partial (cr : Crypto) :
    (octExport [] = .ok [] ∧ (cr.readFile [] = .ok none → octParse cr [] (py! "pem") = .ok (.oct []))) ∧
    (∀ s, cr.readFile (b2a s) = .ok none → octParse cr (b2a s) (py! "pem") = .ok (.oct s)) ∧
    (∀ s, cr.readFile s = .ok none → octParse cr s (py! "der") = .ok (.oct s)) := by
  refine ⟨⟨rfl, octParse_b2a cr []⟩, octParse_b2a cr, ?_⟩
  intro s hs
  unfold octParse parseRaw
  rw [hs]
  simp only
  rw [if_neg (by decide), if_pos trivial]
  exact octInit_canon rfl rfl

end Psion.Props
