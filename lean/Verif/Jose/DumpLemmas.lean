import Verif.Jose.KeyLemmas

/-! Helper lemmas: dumping a key and loading the dump. -/

namespace Psion

theorem b64ToIntV_numVal {n : Nat} (hn : 0 < n) : b64ToIntV (numVal n) = .ok (some n) := by
  obtain ⟨b, h1, h2⟩ := b64ToInt_intToB64 hn
  unfold intToB64 at h1
  rw [if_neg (by omega)] at h1
  simp only [Int.toNat_natCast, Except.ok.injEq] at h1
  unfold b64ToIntV numVal
  simp only
  rw [h1, h2]

theorem b64ToNat_numVal {n : Nat} (hn : 0 < n) : b64ToNat (numVal n) = .ok n := by
  unfold b64ToNat; rw [b64ToIntV_numVal hn]

theorem numVal_truthy {n : Nat} (hn : 0 < n) : (numVal n).truthy = true := by
  have h := b64ToIntV_numVal hn
  unfold numVal at h ⊢
  generalize asciiStr _ = s at h ⊢
  cases s with
  | nil =>
    have : b64ToIntV (.str []) = .error .valueErr := by decide +kernel
    rw [this] at h; cases h
  | cons => rfl

theorem numVal_ne_none (n : Nat) : numVal n ≠ .none := by
  unfold numVal; simp

/-- Zero is dumped as the empty text, which cannot be loaded. -/
theorem b64ToIntV_numVal_zero : b64ToIntV (numVal 0) = .error .valueErr := by decide +kernel

theorem falsyNum_pos {n : Nat} (hn : 0 < n) : falsyNum (some n) = false := by
  cases n with
  | zero => omega
  | succ => rfl

theorem b64url_ascii (b : Bytes) : ∀ c ∈ b64urlEncode b, c.val < 128 := by
  intro c hc
  have := b64urlEncode_alphabet b c hc
  unfold IsB64uChar at this
  omega

theorem toStringB_b64url (b : Bytes) : toStringB (b64urlEncode b) = asciiStr (b64urlEncode b) :=
  toStringB_ascii (b64url_ascii b)

theorem utf8Encode_asciiStr {b : Bytes} (h : ∀ c ∈ b, c.val < 128) :
    utf8Encode (asciiStr b) = .ok b := by
  exact utf8Encode_decode (utf8Decode_ascii h)

theorem toBytesV_b64url (fe : FloatEnv) (b : Bytes) :
    toBytesV fe (.str (toStringB (b64urlEncode b))) = .ok (some (b64urlEncode b)) := by
  unfold toBytesV
  simp only [toStringB_b64url, utf8Encode_asciiStr (b64url_ascii b)]

/-! ### building key objects from canonical members -/

theorem not_mem_self {d : Dict PyStr Val} (h : Dict.get d (py! "self") = none) :
    Dict.mem d (py! "self") = false := by
  unfold Dict.mem; rw [h]; rfl

theorem ecInit_canon {cr : Crypto} {d : Dict PyStr Val} {c : Curve} {x y : Nat} {o : Option Nat}
    (h0 : Dict.get d (py! "self") = none) (h1 : Dict.get d (py! "crv") = some (.str c.name))
    (h2 : Dict.get d (py! "x") = some (numVal x)) (h3 : Dict.get d (py! "y") = some (numVal y))
    (hx : 0 < x) (hy : 0 < y) (hp : cr.ecPubOk c x y = true)
    (hd : (o = none ∧ Dict.get d (py! "d") = none) ∨
      ∃ n, o = some n ∧ 0 < n ∧ Dict.get d (py! "d") = some (numVal n) ∧ cr.ecPrivOk c x y n = true) :
    ecInit cr d = .ok (.ec c x y o) := by
  unfold ecInit arg
  rw [if_neg (by rw [not_mem_self h0]; simp)]
  simp only [h1, h2, h3, ok_bind, Val.hashable, Bool.not_true, Bool.false_eq_true, if_false,
    Curve.ofName_name, b64ToIntV_numVal hx, b64ToIntV_numVal hy, hp]
  rcases hd with ⟨rfl, hd⟩ | ⟨n, rfl, hn, hd, hpr⟩
  · have : (dget d (py! "d")).truthy = false := by simp [dget, hd, Val.truthy]
    rw [this]; rfl
  · have e : dget d (py! "d") = numVal n := dget_of_get hd
    rw [e, numVal_truthy hn]
    simp only [if_true, b64ToNat_numVal hn, ok_bind, hpr, Bool.not_true, Bool.false_eq_true,
      if_false]
    rfl

/-- All private numbers are positive. -/
def RsaPriv.Pos (r : RsaPriv) : Prop := 0 < r.d ∧ 0 < r.p ∧ 0 < r.q ∧ 0 < r.dp ∧ 0 < r.dq ∧ 0 < r.qi

theorem rsaInit_canon {cr : Crypto} {d : Dict PyStr Val} {n e : Nat} {o : Option RsaPriv}
    (h0 : Dict.get d (py! "self") = none)
    (h2 : Dict.get d (py! "n") = some (numVal n)) (h3 : Dict.get d (py! "e") = some (numVal e))
    (hn : 0 < n) (he : 0 < e) (hp : cr.rsaPubOk n e = true)
    (hd : (o = none ∧ Dict.get d (py! "d") = none) ∨
      ∃ r : RsaPriv, o = some r ∧ r.Pos ∧ Dict.get d (py! "d") = some (numVal r.d) ∧
        Dict.get d (py! "p") = some (numVal r.p) ∧ Dict.get d (py! "q") = some (numVal r.q) ∧
        Dict.get d (py! "dp") = some (numVal r.dp) ∧ Dict.get d (py! "dq") = some (numVal r.dq) ∧
        Dict.get d (py! "qi") = some (numVal r.qi) ∧ cr.rsaPrivOk n e r = true) :
    rsaInit cr d = .ok (.rsa n e o) := by
  unfold rsaInit arg
  rw [if_neg (by rw [not_mem_self h0]; simp)]
  simp only [h2, h3, ok_bind, b64ToIntV_numVal hn, b64ToIntV_numVal he, hp, Bool.not_true,
    Bool.false_eq_true, if_false]
  rcases hd with ⟨rfl, hd⟩ | ⟨r, rfl, ⟨p1, p2, p3, p4, p5, p6⟩, g1, g2, g3, g4, g5, g6, hpr⟩
  · have : (dget d (py! "d")).truthy = false := by simp [dget, hd, Val.truthy]
    rw [this]; rfl
  · have hdd : dget d (py! "d") = numVal r.d := dget_of_get g1
    have hpriv : rsaPrivate cr n e d = .ok r := by
      unfold rsaPrivate numOr
      simp only [dget_of_get g1, dget_of_get g2, dget_of_get g3, dget_of_get g4, dget_of_get g5,
        dget_of_get g6, b64ToNat_numVal p1, b64ToIntV_numVal p2, b64ToIntV_numVal p3,
        b64ToIntV_numVal p4, b64ToIntV_numVal p5, b64ToIntV_numVal p6, ok_bind, falsyNum_pos p2,
        falsyNum_pos p3, falsyNum_pos p4, falsyNum_pos p5, falsyNum_pos p6, numD, Bool.or_false,
        Bool.false_eq_true, if_false, Option.getD_some]
      rfl
    rw [hdd, numVal_truthy p1]
    simp only [if_true, hpriv, hpr, Bool.not_true, Bool.false_eq_true, if_false]

theorem octInit_canon {cr : Crypto} {d : Dict PyStr Val} {s : Bytes}
    (h0 : Dict.get d (py! "self") = none)
    (h1 : Dict.get d (py! "k") = some (.str (toStringB (b64urlEncode s)))) :
    octInit cr d = .ok (.oct s) := by
  unfold octInit arg
  rw [if_neg (by rw [not_mem_self h0]; simp)]
  simp only [h1, ok_bind, toBytesV_b64url, b64_roundtrip]
  rfl

/-! ### dumps -/

/-- The numbers of a key object that occur in its private dump are all positive. -/
def Material.Pos : Material → Prop
  | .ec _ x y d => 0 < x ∧ 0 < y ∧ ∀ n, d = some n → 0 < n
  | .oct _ => True
  | .rsa n e p => 0 < n ∧ 0 < e ∧ ∀ r, p = some r → r.Pos

/-- The key object without its private part (a secret has no public part). -/
def Material.toPublic : Material → Material
  | .ec c x y _ => .ec c x y none
  | .oct s => .oct s
  | .rsa n e _ => .rsa n e none

theorem Material.toPublic_kty (m : Material) : m.toPublic.kty = m.kty := by cases m <;> rfl

/-- The primitives accept the numbers. -/
def Material.Valid (cr : Crypto) : Material → Prop
  | .ec c x y d => cr.ecPubOk c x y = true ∧ ∀ n, d = some n → cr.ecPrivOk c x y n = true
  | .oct _ => True
  | .rsa n e p => cr.rsaPubOk n e = true ∧ ∀ r, p = some r → cr.rsaPrivOk n e r = true

theorem materialInit_valid {cr : Crypto} {k : Kty} {d : Dict PyStr Val} {m : Material}
    (h : materialInit cr k d = .ok m) : m.Valid cr := by
  cases k with
  | oct => obtain ⟨b, s, rfl, -⟩ := octInit_ok h; trivial
  | rsa =>
    obtain ⟨n, e, o, rfl, -, -, hp, hd⟩ := rsaInit_ok h
    refine ⟨hp, ?_⟩
    rintro r rfl
    rcases hd with ⟨-, hd⟩ | ⟨r', -, -, hd, e⟩
    · cases hd
    · cases e; exact hd
  | ec =>
    obtain ⟨c, x, y, o, rfl, -, -, -, hp, hd⟩ := ecInit_ok h
    refine ⟨hp, ?_⟩
    rintro r rfl
    rcases hd with ⟨-, hd⟩ | ⟨r', -, -, hd, e⟩
    · cases hd
    · cases e; exact hd

theorem materialInit_no_self {cr : Crypto} {k : Kty} {d : Dict PyStr Val} {m : Material}
    (h : materialInit cr k d = .ok m) : Dict.get d (py! "self") = none := by
  cases hg : Dict.get d (py! "self") with
  | none => rfl
  | some v =>
    have : Dict.mem d (py! "self") = true := by unfold Dict.mem; rw [hg]; rfl
    cases k with
    | oct => simp only [materialInit, octInit, this, if_true] at h; cases h
    | rsa => simp only [materialInit, rsaInit, this, if_true] at h; cases h
    | ec => simp only [materialInit, ecInit, this, if_true] at h; cases h

theorem dump_ok_dict (m : Material) (pub : Bool) (d : Dict PyStr Val) (h : m.dump pub = .ok d) :
    Dict.Ok d := by
  unfold Dict.Ok Dict.keys
  cases m with
  | ec c x y o =>
    simp only [Material.dump] at h
    split at h
    · cases h; simp
    · split at h
      · cases h
      · cases h; simp
  | oct s => simp only [Material.dump] at h; cases h; simp
  | rsa n e o =>
    simp only [Material.dump] at h
    split at h
    · cases h; simp
    · split at h
      · cases h
      · cases h; simp

/-- Reading a member of a dump: the numbers come from the key object, the other members are kept. -/
theorem get_dump {key : Jwk} {pub : Bool} {md d : Dict PyStr Val} (hm : key.mat.dump pub = .ok md)
    (hd : key.dump pub = .ok d) (hok : Dict.Ok key.data) (k : PyStr) :
    Dict.get d k = (Dict.get md k).or
      (if k ∈ key.mat.kty.allowed then none else Dict.get key.data k) := by
  unfold Jwk.dump at hd
  rw [hm] at hd
  cases hd
  rw [Dict.get_update_ok (dump_ok_dict _ _ _ hm), Dict.get_filter hok]
  congr 1
  cases Dict.get key.data k with
  | none => simp
  | some v => by_cases hk : k ∈ key.mat.kty.allowed <;> simp [hk, Option.filter]

/-- The members of a dump that belong to the key object are the numbers of its dump. -/
theorem get_dump_allowed {key : Jwk} {pub : Bool} {md d : Dict PyStr Val}
    (hm : key.mat.dump pub = .ok md) (hd : key.dump pub = .ok d) (hok : Dict.Ok key.data)
    {k : PyStr} (hk : k ∈ key.mat.kty.allowed) : Dict.get d k = Dict.get md k := by
  rw [get_dump hm hd hok, if_pos hk]; simp

/-- Dumping succeeds exactly for public dumps, secrets, and keys with a private part. -/
theorem dump_ok_iff (m : Material) (pub : Bool) :
    (∃ d, m.dump pub = .ok d) ↔ (pub = true ∨ m.toPublic ≠ m ∨ ∃ s, m = .oct s) := by
  cases pub with
  | true => cases m <;> simp [Material.dump]
  | false =>
    cases m with
    | ec c x y o => cases o <;> simp [Material.dump, Material.toPublic]
    | oct s => simp [Material.dump]
    | rsa n e o => cases o <;> simp [Material.dump, Material.toPublic]

/-- Loading members that agree with the dump of a key object gives this key object (without the private part for a public
dump). -/
theorem load_members {cr : Crypto} {m : Material} {pub : Bool} {md d : Dict PyStr Val} (hm : m.dump pub = .ok md)
    (hvalid : m.Valid cr) (hpos : m.Pos) (hself : Dict.get d (py! "self") = none)
    (G : ∀ k ∈ py! "kty" :: m.kty.allowed, Dict.get d k = Dict.get md k) :
    Jwk.init cr (.dict d) = .ok ⟨fullDict d, if pub then m.toPublic else m⟩ := by
  cases m with
  | oct s =>
    simp only [Material.dump, Except.ok.injEq] at hm
    subst hm
    have e : (if pub = true then (Material.oct s).toPublic else .oct s) = .oct s := by
      cases pub <;> rfl
    rw [e]
    refine jwkInit_ok.mpr ⟨d, rfl, rfl, dget_of_get ?_, octInit_canon hself ?_⟩
    · rw [G _ (by simp)]; rfl
    · rw [G _ (by simp [Kty.allowed, Material.kty])]; rfl
  | ec c x y o =>
    obtain ⟨hx, hy, ho⟩ := hpos
    obtain ⟨hv1, hv2⟩ := hvalid
    have e : (if pub = true then (Material.ec c x y o).toPublic else .ec c x y o) =
        .ec c x y (if pub = true then none else o) := by
      cases pub <;> rfl
    rw [e]
    have hm' : pub = true ∧ md = [(py! "kty", .str (py! "EC")), (py! "crv", .str c.name), (py! "x", numVal x), (py! "y", numVal y)] ∨
        pub = false ∧ ∃ n, o = some n ∧ md = [(py! "kty", .str (py! "EC")), (py! "crv", .str c.name), (py! "x", numVal x),
          (py! "y", numVal y), (py! "d", numVal n)] := by
      simp only [Material.dump] at hm
      split at hm
      · rename_i hp; cases hm; exact Or.inl ⟨hp, rfl⟩
      · rename_i hp
        split at hm
        · cases hm
        · cases hm; exact Or.inr ⟨by simpa using hp, _, rfl, rfl⟩
    refine jwkInit_ok.mpr ⟨d, rfl, rfl, dget_of_get ?_, ecInit_canon (c := c) (x := x) (y := y)
      hself ?_ ?_ ?_ hx hy hv1 ?_⟩ <;>
    · rw [G _ (by simp [Kty.allowed, Material.kty])]
      rcases hm' with ⟨hp, rfl⟩ | ⟨hp, n, rfl, rfl⟩
      · first
          | rfl
          | exact Or.inl ⟨by simp [hp], rfl⟩
      · first
          | rfl
          | exact Or.inr ⟨n, by simp [hp], ho n rfl, rfl, hv2 n rfl⟩
  | rsa n e o =>
    obtain ⟨hx, hy, ho⟩ := hpos
    obtain ⟨hv1, hv2⟩ := hvalid
    have e' : (if pub = true then (Material.rsa n e o).toPublic else .rsa n e o) =
        .rsa n e (if pub = true then none else o) := by
      cases pub <;> rfl
    rw [e']
    simp only [Material.dump] at hm
    have A : ∀ k, k ∈ [py! "kty", py! "d", py! "p", py! "q", py! "dp", py! "dq", py! "qi", py! "n", py! "e"] →
        Dict.get d k = Dict.get md k := by
      intro k hk
      apply G
      simp only [List.mem_cons, List.not_mem_nil, or_false] at hk
      simp only [Material.kty, Kty.allowed, List.mem_cons, List.not_mem_nil, or_false]
      rcases hk with h | h | h | h | h | h | h | h | h <;> simp [h]
    refine jwkInit_ok.mpr ⟨d, rfl, rfl, dget_of_get ?_, rsaInit_canon (n := n) (e := e)
      hself ?_ ?_ hx hy hv1 ?_⟩
    · rw [A _ (by simp)]
      split at hm
      · cases hm; rfl
      · split at hm
        · cases hm
        · cases hm; rfl
    · rw [A _ (by simp)]
      split at hm
      · cases hm; rfl
      · split at hm
        · cases hm
        · cases hm; rfl
    · rw [A _ (by simp)]
      split at hm
      · cases hm; rfl
      · split at hm
        · cases hm
        · cases hm; rfl
    · rw [A _ (by simp), A _ (by simp), A _ (by simp), A _ (by simp), A _ (by simp),
        A _ (by simp)]
      split at hm
      · rename_i hp
        cases hm
        exact Or.inl ⟨by simp [hp], rfl⟩
      · rename_i hp
        split at hm
        · cases hm
        · rename_i r
          cases hm
          exact Or.inr ⟨r, by simp [hp], ho r rfl, rfl, rfl, rfl, rfl, rfl, rfl, hv2 r rfl⟩

theorem dump_kty {m : Material} {pub : Bool} {md : Dict PyStr Val} (hm : m.dump pub = .ok md) :
    Dict.get md (py! "kty") = some (.str m.kty.name) := by
  cases m with
  | oct s => simp only [Material.dump, Except.ok.injEq] at hm; subst hm; rfl
  | ec c x y o | rsa n e o =>
    simp only [Material.dump] at hm
    split at hm
    · cases hm; rfl
    · split at hm
      · cases hm
      · cases hm; rfl

theorem dump_names {m : Material} {pub : Bool} {md : Dict PyStr Val} (hm : m.dump pub = .ok md) {k : PyStr}
    (hk : k ∉ py! "kty" :: m.kty.allowed) : Dict.get md k = none := by
  cases m with
  | oct s =>
    simp only [Material.dump, Except.ok.injEq] at hm
    subst hm
    simp only [Material.kty, Kty.allowed, List.mem_cons, List.not_mem_nil, not_or, or_false] at hk
    simp [Dict.get_cons, Ne.symm hk.1, Ne.symm hk.2]
  | ec c x y o =>
    simp only [Material.kty, Kty.allowed, List.mem_cons, List.not_mem_nil, not_or, or_false] at hk
    obtain ⟨h1, h2, h3, h4, h5⟩ := hk
    simp only [Material.dump] at hm
    split at hm
    · cases hm; simp [Dict.get_cons, Ne.symm h1, Ne.symm h2, Ne.symm h3, Ne.symm h4]
    · split at hm
      · cases hm
      · cases hm; simp [Dict.get_cons, Ne.symm h1, Ne.symm h2, Ne.symm h3, Ne.symm h4, Ne.symm h5]
  | rsa n e o =>
    simp only [Material.kty, Kty.allowed, List.mem_cons, List.not_mem_nil, not_or, or_false] at hk
    obtain ⟨h1, h2, h3, h4, h5, h6, h7, h8, h9⟩ := hk
    simp only [Material.dump] at hm
    split at hm
    · cases hm; simp [Dict.get_cons, Ne.symm h1, Ne.symm h2, Ne.symm h3]
    · split at hm
      · cases hm
      · cases hm
        simp [Dict.get_cons, Ne.symm h1, Ne.symm h2, Ne.symm h3, Ne.symm h4, Ne.symm h5, Ne.symm h6, Ne.symm h7, Ne.symm h8,
          Ne.symm h9]

/-- Loading a dump gives the same key object (without the private part for a public dump). -/
theorem reload {cr : Crypto} {v : Val} {key : Jwk} {pub : Bool} {d : Dict PyStr Val}
    (hk : Jwk.init cr v = .ok key) (hok : Dict.Ok key.data) (hpos : key.mat.Pos)
    (hd : key.dump pub = .ok d) :
    Jwk.init cr (.dict d) = .ok ⟨fullDict d, if pub then key.mat.toPublic else key.mat⟩ := by
  obtain ⟨dv, rfl, hdata, hkty, hmat⟩ := jwkInit_ok.mp hk
  have hself : Dict.get key.data (py! "self") = none := by
    rw [hdata]; exact get_fullDict_none (materialInit_no_self hmat)
  have hmd : ∃ md, key.mat.dump pub = .ok md := by
    cases hm : key.mat.dump pub with
    | ok md => exact ⟨md, rfl⟩
    | error e => unfold Jwk.dump at hd; rw [hm] at hd; cases hd
  obtain ⟨md, hm⟩ := hmd
  have hs : py! "self" ∉ py! "kty" :: key.mat.kty.allowed := by
    cases key.mat <;> simp [Material.kty, Kty.allowed]
  refine load_members hm (materialInit_valid hmat) hpos ?_ ?_
  · rw [get_dump hm hd hok, dump_names hm hs, hself]; simp
  · intro k hk
    rcases List.mem_cons.mp hk with rfl | hk
    · rw [get_dump hm hd hok, dump_kty hm]; rfl
    · exact get_dump_allowed hm hd hok hk

end Psion
