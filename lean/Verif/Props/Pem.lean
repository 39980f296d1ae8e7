import Verif.Props.KeyExport
import Verif.Real.PemLemmas
import Verif.Real.Crypto

/-!
# Property C127: keys in files

The reader and the writer of `Verif/Real/Pem.lean` with the parser and the export of the library, over any file system.
-/

namespace Psion.Props

open Psion Psion.Spec

/-- The real algorithms, with a file system. -/
def withFiles (files : Bytes → Res (Option Bytes)) : Crypto := { Real.crypto with readFile := files }

theorem valid_range {files : Bytes → Res (Option Bytes)} {m : Material} (h : m.Valid (withFiles files)) : Real.InRange m := by
  cases m with
  | oct s => trivial
  | rsa n e r => trivial
  | ec c x y d =>
    obtain ⟨h1, h2⟩ := h
    have h1 : (Real.domain c).on x y = true := h1
    simp only [Real.Domain.on, Bool.and_eq_true, decide_eq_true_eq] at h1
    refine ⟨h1.1.1, h1.1.2, ?_⟩
    intro k hk
    have h3 : (decide (0 < k ∧ k < (Real.domain c).n) &&
      ((Real.domain c).affine ((Real.domain c).mul k (Real.domain c).base) == some (x, y))) = true := h2 k hk
    simp only [Bool.and_eq_true, decide_eq_true_eq] at h3
    exact h3.1.2

theorem bits_mono {a b : Nat} (h : a < b) : bits a ≤ bits b := Real.bits_bound (lt_trans h (Real.lt_bits b))

theorem valid_sized {files : Bytes → Res (Option Bytes)} {m : Material} (h : m.Valid (withFiles files))
    (hn : ∀ n e r, m = .rsa n e r → bits n ≤ 2 ^ 64) : Real.Sized m := by
  cases m with
  | oct s => trivial
  | ec c x y d => trivial
  | rsa n e r =>
    obtain ⟨h1, h2⟩ := h
    have hn := hn n e r rfl
    have h1 : decide (3 ≤ n ∧ 3 ≤ e ∧ e < n ∧ e % 2 = 1) = true := h1
    rw [decide_eq_true_eq] at h1
    refine ⟨hn, le_trans (bits_mono h1.2.2.1) hn, ?_⟩
    intro k hk x hx
    have h3 : decide (3 ≤ n ∧ 3 ≤ e ∧ e < n ∧ e % 2 = 1 ∧ k.p < n ∧ k.q < n ∧ k.dp < n ∧ k.dq < n ∧ k.qi < n ∧ k.d < n ∧ k.dp % 2 = 1 ∧
      k.dq % 2 = 1 ∧ k.p * k.q = n) = true := h2 k hk
    rw [decide_eq_true_eq] at h3
    have hx : x < n := by
      simp only [List.mem_cons, List.not_mem_nil, or_false] at hx
      rcases hx with rfl | rfl | rfl | rfl | rfl | rfl <;> omega
    exact le_trans (bits_mono hx) hn

theorem occurs_label (label body text part : Bytes) (h : PemText label body text) (hp : Occurs part label) : Occurs part text := by
  obtain ⟨lines, -, -, -, rfl⟩ := h
  obtain ⟨a, b, rfl⟩ := hp
  exact ⟨by! "-----BEGIN " ++ a, b ++ by! "-----\n" ++ lines.flatMap (· ++ by! "\n") ++ by! "-----END " ++ (a ++ part ++ b) ++
    by! "-----\n", by simp⟩

theorem load_text {m : Material} (hr : Real.InRange m) {text : Bytes} (ht : TraditionalText m text ∨ PrivateText m text) :
    Real.loadPrivate text = .ok (Real.pemKeyOf m) := by
  rcases ht with ht | ht
  · exact Real.load_traditional hr ht
  · exact Real.load_private hr ht

theorem occurs_private {m : Material} {text : Bytes} (ht : TraditionalText m text ∨ PrivateText m text) :
    Occurs (by! "PRIVATE") text := by
  rcases ht with ht | ⟨body, -, ht⟩
  · match m, ht with
    | .rsa n e (some r), ⟨body, _, ht⟩ => exact occurs_label _ _ _ _ ht ⟨by! "RSA ", by! " KEY", rfl⟩
    | .ec c x y (some d), ⟨body, _, ht⟩ => exact occurs_label _ _ _ _ ht ⟨by! "EC ", by! " KEY", rfl⟩
  · exact occurs_label _ _ _ _ ht ⟨[], by! " KEY", rfl⟩

/-- C127: a private key in a file, or given as text, in the form of OpenSSL or of RFC 5208, is read as this key, or its public part. -/
theorem C127_private (files : Bytes → Res (Option Bytes)) (m : Material) (hv : m.Valid (withFiles files)) (hz : NoZero m) (text : Bytes)
    (ht : TraditionalText m text ∨ PrivateText m text) (raw : Bytes) (hraw : Content (withFiles files) raw text) (pub : Bool) :
    ∃ key, Jwk.parse (withFiles files) raw m.kty.name pub none (py! "pem") [] = .ok key ∧ key.mat = if pub then publicPart m else m := by
  have hload : (withFiles files).loadPemPrivate text none = .ok (Real.pemKeyOf m) := load_text (valid_range hv) ht
  have hocc := occurs_private ht
  have hraw' : RawKey (withFiles files) raw none m.kty.name (py! "pem") m ∧ HasSecretPart m := by
    have hpart : (∃ n e r, m = .rsa n e (some r)) ∨ ∃ c x y d, m = .ec c x y (some d) := by
      rcases ht with ht | ⟨body, ⟨_, _, _, _, -, -, ht, -⟩, -⟩
      · match m, ht with
        | .rsa n e (some r), _ => exact Or.inl ⟨n, e, r, rfl⟩
        | .ec c x y (some d), _ => exact Or.inr ⟨c, x, y, d, rfl⟩
      · match m, ht with
        | .rsa n e (some r), _ => exact Or.inl ⟨n, e, r, rfl⟩
        | .ec c x y (some d), _ => exact Or.inr ⟨c, x, y, d, rfl⟩
    rcases hpart with ⟨n, e, r, rfl⟩ | ⟨c, x, y, d, rfl⟩
    · exact ⟨.rsaPrivate text n e r hraw hocc hload, by simp [HasSecretPart]⟩
    · exact ⟨.ecPrivate text c x y d hraw hocc hload, by simp [HasSecretPart]⟩
  refine (C92_parse _ raw m.kty.name pub none (py! "pem") [] List.nodup_nil ?_ _).mpr ⟨m, hraw'.1, fun _ => hraw'.2, rfl⟩
  intro m' h'
  cases C92_one _ _ _ _ _ _ _ hraw'.1 h'
  exact ⟨hz, hv, fun _ _ => rfl⟩

/-- C127: these texts are not encrypted; whoever gives a password for them gets a `TypeError`. -/
theorem C127_password (files : Bytes → Res (Option Bytes)) (m : Material) (hv : m.Valid (withFiles files)) (text : Bytes)
    (ht : TraditionalText m text ∨ PrivateText m text) (raw : Bytes) (hraw : Content (withFiles files) raw text) (pub : Bool)
    (password : Bytes) (name : PyStr) (hname : name = py! "EC" ∨ name = py! "RSA") :
    Jwk.parse (withFiles files) raw name pub (some password) (py! "pem") [] = .error .typeErr := by
  have h1 : parseRaw (withFiles files) raw = .ok text := parseRaw_iff.mpr hraw
  have h2 : isInfix (by! "PRIVATE") text = true := isInfix_iff.mpr (occurs_private ht)
  have h3 : (withFiles files).loadPemPrivate text (some password) = .error .typeErr := by
    show (Real.loadPrivate text).bind _ = _
    rw [load_text (valid_range hv) ht]
    rfl
  have hk : Kty.ofName (py! "EC") = some .ec := rfl
  have hk' : Kty.ofName (py! "RSA") = some .rsa := rfl
  rcases hname with rfl | rfl
  · simp only [Jwk.parse, hk, materialParse, ecParse, h1, h2, h3, if_true]
  · simp only [Jwk.parse, hk', materialParse, rsaParse, h1, h2, h3, if_true]

/-- C127, as far as it holds: a public key in a file, or given as text, in the form of RFC 5280, is read as this key, if the letters
`PRIVATE` do not occur in the text. -/
theorem C127_public_partial (files : Bytes → Res (Option Bytes)) (m : Material) (hv : m.Valid (withFiles files)) (hz : NoZero m)
    (text : Bytes) (ht : PublicText m text) (hno : ¬ Occurs (by! "PRIVATE") text) (raw : Bytes)
    (hraw : Content (withFiles files) raw text) (pw : Option Bytes) :
    ∃ key, Jwk.parse (withFiles files) raw m.kty.name true pw (py! "pem") [] = .ok key ∧ key.mat = publicPart m := by
  have hload : (withFiles files).loadPemPublic text = .ok (Real.pemKeyOf (publicPart m)) := Real.load_public (valid_range hv) ht
  have hocc : Occurs (by! "PUBLIC") text := by
    obtain ⟨body, -, ht⟩ := ht
    exact occurs_label _ _ _ _ ht ⟨[], by! " KEY", rfl⟩
  have hraw' : RawKey (withFiles files) raw pw m.kty.name (py! "pem") (publicPart m) ∧ NoZero (publicPart m) ∧
      (publicPart m).Valid (withFiles files) := by
    cases m with
    | oct s =>
      obtain ⟨_, ⟨_, _, _, h, -⟩, -⟩ := ht
      exact h.elim
    | rsa n e r => exact ⟨.rsaPublic text n e hraw hno hocc hload, ⟨hz.1, hz.2.1, nofun⟩, hv.1, nofun⟩
    | ec c x y d => exact ⟨.ecPublic text c x y hraw hno hocc hload, ⟨hz.1, hz.2.1, nofun⟩, hv.1, nofun⟩
  refine (C92_parse _ raw m.kty.name true pw (py! "pem") [] List.nodup_nil ?_ _).mpr
    ⟨publicPart m, hraw'.1, nofun, by cases m <;> rfl⟩
  intro m' h'
  cases C92_one _ _ _ _ _ _ _ hraw'.1 h'
  exact ⟨hraw'.2.1, hraw'.2.2, fun _ _ => rfl⟩

/-- C127: the text that `export` gives for an asymmetric key is the one of the standards, and nothing else: for the public key the one of
RFC 5280, for the private key the one of its type; a key without private part has none of the latter. -/
theorem C127_export (files : Bytes → Res (Option Bytes)) (m : Material) (hv : m.Valid (withFiles files)) (ha : Asymmetric m)
    (hn : ∀ n e r, m = .rsa n e r → bits n ≤ 2 ^ 64) (pub : Bool) (text : Bytes) :
    m.export Real.writer pub = .ok text ↔ if pub then PublicText m text else TraditionalText m text := by
  have hs := valid_sized hv hn
  cases pub with
  | true =>
    rw [if_pos rfl, Real.publicText_iff hs ha]
    cases m with
    | oct s => exact absurd rfl ha
    | rsa n e r => simp [Material.export, eq_comm]
    | ec c x y d => simp [Material.export, eq_comm]
  | false =>
    rw [if_neg (by decide), Real.traditionalText_iff hs]
    cases m with
    | oct s => exact absurd rfl ha
    | rsa n e r => cases r <;> simp [Material.export, eq_comm]
    | ec c x y d => cases d <;> simp [Material.export, eq_comm]

/-- C127, as far as it holds: an exported key is read as the same key, whether it is given as text or stored in a file. -/
theorem C127_roundtrip_partial (files : Bytes → Res (Option Bytes)) (m : Material) (hv : m.Valid (withFiles files)) (hz : NoZero m)
    (ha : Asymmetric m) (hn : ∀ n e r, m = .rsa n e r → bits n ≤ 2 ^ 64) (pub : Bool) (text : Bytes)
    (ht : m.export Real.writer pub = .ok text) (hno : pub = true → ¬ Occurs (by! "PRIVATE") text) (raw : Bytes)
    (hraw : Content (withFiles files) raw text) :
    ∃ key, Jwk.parse (withFiles files) raw m.kty.name pub none (py! "pem") [] = .ok key ∧ key.mat = if pub then publicPart m else m := by
  have h := (C127_export files m hv ha hn pub text).mp ht
  cases pub with
  | true => exact C127_public_partial files m hv hz text h (hno rfl) raw hraw none
  | false => exact C127_private files m hv hz text (Or.inl h) raw hraw false

/-! ## The letters `PRIVATE` -/

/-- A point of the curve P-256 in whose base64 text the letters `PRIVATE` occur. -/
def lettersX : Nat := 0x3d12150131000000000000000000000000000000000000000000000000000002

def lettersY : Nat := 0x968e9d025688a311f73fa5aa37472695e8c5378b6b9736d870f85b276d90f311

def lettersKey : Material := .ec .p256 lettersX lettersY none

theorem lettersKey_valid (files : Bytes → Res (Option Bytes)) : lettersKey.Valid (withFiles files) :=
  ⟨show (Real.domain .p256).on lettersX lettersY = true by decide +kernel, nofun⟩

/-- The call raises `ValueError`. -/
def isValueErr {α : Type} : Res α → Bool
  | .error .valueErr => true
  | _ => false

theorem eq_of_isValueErr {α : Type} {r : Res α} (h : isValueErr r = true) : r = .error .valueErr := by
  unfold isValueErr at h
  split at h
  · rfl
  · cases h

theorem lettersKey_private : Real.loadPrivate (Real.writer.pub lettersKey) = .error .valueErr := by
  apply eq_of_isValueErr
  decide +kernel

/-- C127 fails: this public key, exported, is refused, because the letters `PRIVATE` occur in its base64 text. -/
theorem C127_public_refuted (files : Bytes → Res (Option Bytes)) :
    ∃ text, lettersKey.export Real.writer true = .ok text ∧ PublicText lettersKey text ∧
      ∀ raw, Content (withFiles files) raw text →
        Jwk.parse (withFiles files) raw (py! "EC") true none (py! "pem") [] = .error .valueErr := by
  refine ⟨_, rfl, (C127_export files lettersKey (lettersKey_valid files) (by unfold Asymmetric; decide) nofun true _).mp rfl, ?_⟩
  intro raw hraw
  have hk : Kty.ofName (py! "EC") = some .ec := rfl
  have h1 : parseRaw (withFiles files) raw = .ok (Real.writer.pub lettersKey) := parseRaw_iff.mpr hraw
  have h2 : isInfix (by! "PRIVATE") (Real.writer.pub lettersKey) = true := by decide +kernel
  have h3 : ∀ t, (withFiles files).loadPemPrivate t none = Real.loadPrivate t := fun _ => rfl
  simp only [Jwk.parse, hk, materialParse, ecParse, h1, h2, h3, lettersKey_private, if_true]

/-! ## Keys -/

/-- The base point of P-256, with the private number 1. -/
def baseKey : Material := .ec .p256 (Real.domain .p256).gx (Real.domain .p256).gy (some 1)

theorem baseKey_valid (files : Bytes → Res (Option Bytes)) : baseKey.Valid (withFiles files) := by
  refine ⟨show Real.crypto.ecPubOk .p256 (Real.domain .p256).gx (Real.domain .p256).gy = true by decide +kernel, ?_⟩
  intro n h
  cases h
  exact show Real.crypto.ecPrivOk .p256 (Real.domain .p256).gx (Real.domain .p256).gy 1 = true by decide +kernel

/-- A small RSA key. -/
def smallKey : Material := .rsa 33 3 (some ⟨7, 3, 11, 1, 7, 2⟩)

theorem smallKey_valid (files : Bytes → Res (Option Bytes)) : smallKey.Valid (withFiles files) := by
  refine ⟨show Real.crypto.rsaPubOk 33 3 = true by decide, ?_⟩
  intro n h
  cases h
  exact show Real.crypto.rsaPrivOk 33 3 ⟨7, 3, 11, 1, 7, 2⟩ = true by decide

/-- A file system with one file. -/
def oneFile (name content : Bytes) : Bytes → Res (Option Bytes) := fun n => if n = name then .ok (some content) else .ok none

theorem oneFile_here (name content : Bytes) : (withFiles (oneFile name content)).readFile name = .ok (some content) :=
  show oneFile name content name = _ by simp [oneFile]

/-- The texts of both keys, the first given as it is, the second in a file. -/
example : (∃ text key, baseKey.export Real.writer false = .ok text ∧ TraditionalText baseKey text ∧
      Jwk.parse (withFiles fun _ => .ok none) text (py! "EC") false none (py! "pem") [] = .ok key ∧ key.mat = baseKey) ∧
    ∃ text key, smallKey.export Real.writer true = .ok text ∧ PublicText smallKey text ∧
      Jwk.parse (withFiles (oneFile (by! "key.pem") text)) (by! "key.pem") (py! "RSA") true none (py! "pem") [] = .ok key ∧
      key.mat = .rsa 33 3 none := by
  constructor
  · have h := (C127_export (fun _ => .ok none) baseKey (baseKey_valid _) (by unfold Asymmetric; decide) nofun false _).mp rfl
    rw [if_neg (by decide)] at h
    obtain ⟨key, h1, h2⟩ := C127_private (fun _ => .ok none) baseKey (baseKey_valid _) ⟨by decide, by decide, by decide⟩ _ (Or.inl h) _
      (Or.inr ⟨rfl, rfl⟩) false
    exact ⟨_, key, rfl, h, h1, h2⟩
  · have hn : ∀ n e r, smallKey = .rsa n e r → bits n ≤ 2 ^ 64 := by
      intro n e r h
      cases h
      decide
    have h := (C127_export (fun _ => .ok none) smallKey (smallKey_valid _) (by unfold Asymmetric; decide) hn true _).mp rfl
    obtain ⟨key, h1, h2⟩ := C127_public_partial (oneFile (by! "key.pem") (Real.writer.pub smallKey)) smallKey (smallKey_valid _)
      ⟨by decide, by decide, fun r hr => by cases hr; decide⟩ _ h (fun ho => absurd (isInfix_iff.mpr ho) (by decide +kernel)) (by! "key.pem")
      (Or.inl (oneFile_here _ _)) none
    exact ⟨_, key, rfl, h, h1, h2⟩

/-- A key in the form of RFC 5208 is read. -/
example : ∃ text key, PrivateText smallKey text ∧
    Jwk.parse (withFiles fun _ => .ok none) text (py! "RSA") false none (py! "pem") [] = .ok key ∧ key.mat = smallKey := by
  have hs : Real.Sized smallKey := valid_sized (smallKey_valid fun _ => .ok none) (by intro n e r h; cases h; decide)
  have h : PrivateText smallKey _ := ⟨_, ⟨_, _, _, _, (Real.derInt_iff (by decide) _).mpr rfl,
    ⟨_, _, (Real.der_iff (by decide +kernel)).mpr rfl, (Real.der_iff (by decide)).mpr rfl, (Real.der_iff (by decide +kernel)).mpr rfl⟩,
    (Real.rsaPrivateKey_iff hs _).mpr rfl, (Real.der_iff (by decide +kernel)).mpr rfl, (Real.der_iff (by decide +kernel)).mpr rfl⟩,
    (Real.pem_iff _).mpr rfl⟩
  obtain ⟨key, h1, h2⟩ := C127_private (fun _ => .ok none) smallKey (smallKey_valid _) ⟨by decide, by decide, fun r hr => by cases hr; decide⟩ _
    (Or.inr h) _ (Or.inr ⟨rfl, rfl⟩) false
  exact ⟨_, key, h, h1, h2⟩

end Psion.Props
