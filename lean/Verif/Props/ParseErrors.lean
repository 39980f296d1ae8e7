import Verif.Props.KeyParse
import Verif.Spec.JoseErrors

/-!
# Property C119: the refusal of a raw key says what is wrong
-/

namespace Psion.Props

open Psion Psion.Spec

/-- The formats of raw keys: PEM for all types, and the plain bytes of a secret. -/
def Format (alg format : PyStr) : Prop := format = py! "pem" ∨ alg = py! "oct" ∧ format = py! "der"

/-- What the package `cryptography` answers for the PEM block, read as a private key or as a public one. -/
inductive PemRead (cr : Crypto) (pw : Option Bytes) (text : Bytes) : Bool → Res PemKey → Prop
  | priv r (h : Occurs (by! "PRIVATE") text) (hl : cr.loadPemPrivate text pw = r) : PemRead cr pw text true r
  | pub r (h : ¬ Occurs (by! "PRIVATE") text) (h' : Occurs (by! "PUBLIC") text) (hl : cr.loadPemPublic text = r) :
      PemRead cr pw text false r

/-- A private or public key that is of the type and, for elliptic curves, on a supported curve. -/
inductive OfType : PyStr → Bool → PemKey → Prop
  | ecPriv c x y d : OfType (py! "EC") true (.ecPriv (some c) x y d)
  | ecPub c x y : OfType (py! "EC") false (.ecPub (some c) x y)
  | rsaPriv n e r : OfType (py! "RSA") true (.rsaPriv n e r)
  | rsaPub n e : OfType (py! "RSA") false (.rsaPub n e)

/-- Why a raw key is refused, and with which error. -/
inductive ParseRefused (cr : Crypto) (raw : Bytes) (alg : PyStr) (pub : Bool) (pw : Option Bytes) (format : PyStr) : Exc → Prop
  /-- The type of key is not supported. -/
  | algorithm (h : alg ∉ keyTypes) : ParseRefused cr raw alg pub pw format (.jose .unsupportedAlgorithm)
  /-- The file cannot be read. -/
  | file e (h : alg ∈ keyTypes) (hf : cr.readFile raw = .error e) : ParseRefused cr raw alg pub pw format e
  /-- The format is not supported. -/
  | format text (h : alg ∈ keyTypes) (hc : Content cr raw text) (hf : ¬ Format alg format) :
      ParseRefused cr raw alg pub pw format (.jose .unsupportedParsingMethod)
  /-- An asymmetric key is given for a secret. -/
  | mark text m (h : alg = py! "oct") (hf : format = py! "pem") (hc : Content cr raw text) (hm : m ∈ keyMarks) (ho : Occurs m text) :
      ParseRefused cr raw alg pub pw format (.jose .invalidKey)
  /-- The secret is not base64. -/
  | base64 text e (h : alg = py! "oct") (hf : format = py! "pem") (hc : Content cr raw text) (hm : ∀ m ∈ keyMarks, ¬ Occurs m text)
      (hs : a2b text = .error e) : ParseRefused cr raw alg pub pw format e
  /-- There is no key. -/
  | noKey text (h : alg = py! "EC" ∨ alg = py! "RSA") (hf : format = py! "pem") (hc : Content cr raw text)
      (hp : ¬ Occurs (by! "PRIVATE") text) (hp' : ¬ Occurs (by! "PUBLIC") text) :
      ParseRefused cr raw alg pub pw format (.jose .invalidKey)
  /-- The PEM block cannot be read. -/
  | pem text b e (h : alg = py! "EC" ∨ alg = py! "RSA") (hf : format = py! "pem") (hc : Content cr raw text)
      (hr : PemRead cr pw text b (.error e)) : ParseRefused cr raw alg pub pw format e
  /-- The key is of another type. -/
  | type text b k (h : alg = py! "EC" ∨ alg = py! "RSA") (hf : format = py! "pem") (hc : Content cr raw text)
      (hr : PemRead cr pw text b (.ok k)) (ho : ¬ OfType alg b k) : ParseRefused cr raw alg pub pw format (.jose .invalidKey)
  /-- The private key is asked for, but there is only the public one. -/
  | «public» m (h : RawKey cr raw pw alg format m) (hp : pub = false) (hs : ¬ HasSecretPart m) :
      ParseRefused cr raw alg pub pw format .runtimeErr

theorem keyTypes_iff {alg : PyStr} : alg ∈ keyTypes ↔ ∃ k, Kty.ofName alg = some k := by
  constructor
  · intro h
    simp only [keyTypes, List.mem_cons, List.not_mem_nil, or_false] at h
    rcases h with rfl | rfl | rfl
    · exact ⟨.ec, rfl⟩
    · exact ⟨.rsa, rfl⟩
    · exact ⟨.oct, rfl⟩
  · rintro ⟨k, h⟩
    cases Kty.ofName_some h
    cases k <;> decide

theorem parseRaw_error {cr : Crypto} {raw : Bytes} {e : Exc} : parseRaw cr raw = .error e ↔ cr.readFile raw = .error e := by
  unfold parseRaw
  cases cr.readFile raw with
  | error e' => simp
  | ok o => cases o <;> simp

theorem ecRaw_none_error {cr : Crypto} {x y : Nat} {o : Option Nat} : ecInit cr (ecArgs none x y o) = .error (.jose .invalidKey) := by
  cases o <;> rfl

/-- What goes wrong before a key object is there. -/
theorem materialParse_refused {cr : Crypto} {raw : Bytes} {pw : Option Bytes} {alg format : PyStr} {k : Kty} (pub : Bool)
    (hlaw : ∀ m, RawKey cr raw pw alg format m → NoZero m ∧ m.Valid cr) (hk : Kty.ofName alg = some k) {e : Exc}
    (h : materialParse cr k raw pw format = .error e) : ParseRefused cr raw alg pub pw format e := by
  have hin : alg ∈ keyTypes := keyTypes_iff.mpr ⟨k, hk⟩
  cases k with
  | oct =>
    cases Kty.ofName_some hk
    simp only [materialParse, octParse] at h
    cases ht : parseRaw cr raw with
    | error e' =>
      rw [ht] at h
      cases h
      exact .file _ hin (parseRaw_error.mp ht)
    | ok text =>
      rw [ht] at h
      have hc := parseRaw_iff.mp ht
      dsimp only at h
      split at h
      · rename_i hf
        subst hf
        split at h
        · rename_i hm
          cases h
          obtain ⟨m, hm, ho⟩ := List.any_eq_true.mp hm
          exact .mark text m rfl rfl hc hm (isInfix_iff.mp ho)
        · rename_i hm
          split at h
          · rename_i e' hs
            cases h
            exact .base64 text _ rfl rfl hc (marks_iff.mp (Bool.eq_false_iff.mpr hm)) hs
          · rw [octRaw] at h
            cases h
      · rename_i hf
        split at h
        · rw [octRaw] at h
          cases h
        · rename_i hf'
          cases h
          exact .format text hin hc (fun hx => hx.elim hf (fun hx => hf' hx.2))
  | ec =>
    cases Kty.ofName_some hk
    simp only [materialParse, ecParse] at h
    cases ht : parseRaw cr raw with
    | error e' =>
      rw [ht] at h
      cases h
      exact .file _ hin (parseRaw_error.mp ht)
    | ok text =>
      rw [ht] at h
      have hc := parseRaw_iff.mp ht
      dsimp only at h
      split at h
      · rename_i hf
        subst hf
        split at h
        · rename_i hp
          have hp := isInfix_iff.mp hp
          split at h
          · rename_i e' hl
            cases h
            exact .pem text true _ (Or.inl rfl) rfl hc (.priv _ hp hl)
          · rename_i c x y d hl
            cases c with
            | none =>
              rw [ecRaw_none_error] at h
              cases h
              exact .type text true _ (Or.inl rfl) rfl hc (.priv _ hp hl) nofun
            | some c =>
              have hr := RawKey.ecPrivate (pw := pw) text c x y d hc hp hl
              rw [ecRaw (hlaw _ hr).1 (hlaw _ hr).2] at h
              cases h
          · rename_i k hn hl
            cases h
            refine .type text true k (Or.inl rfl) rfl hc (.priv _ hp hl) ?_
            intro ho
            cases ho
            exact hn _ _ _ _ rfl
        · rename_i hp
          have hp : ¬ Occurs (by! "PRIVATE") text := fun ho => hp (isInfix_iff.mpr ho)
          split at h
          · rename_i hp'
            have hp' := isInfix_iff.mp hp'
            split at h
            · rename_i e' hl
              cases h
              exact .pem text false _ (Or.inl rfl) rfl hc (.pub _ hp hp' hl)
            · rename_i c x y hl
              cases c with
              | none =>
                rw [ecRaw_none_error] at h
                cases h
                exact .type text false _ (Or.inl rfl) rfl hc (.pub _ hp hp' hl) nofun
              | some c =>
                have hr := RawKey.ecPublic (pw := pw) text c x y hc hp hp' hl
                rw [ecRaw (hlaw _ hr).1 (hlaw _ hr).2] at h
                cases h
            · rename_i k hn hl
              cases h
              refine .type text false k (Or.inl rfl) rfl hc (.pub _ hp hp' hl) ?_
              intro ho
              cases ho
              exact hn _ _ _ rfl
          · rename_i hp'
            cases h
            exact .noKey text (Or.inl rfl) rfl hc hp (fun ho => hp' (isInfix_iff.mpr ho))
      · rename_i hf
        cases h
        exact .format text hin hc (fun hx => hx.elim hf (fun hx => absurd hx.1 (by decide)))
  | rsa =>
    cases Kty.ofName_some hk
    simp only [materialParse, rsaParse] at h
    cases ht : parseRaw cr raw with
    | error e' =>
      rw [ht] at h
      cases h
      exact .file _ hin (parseRaw_error.mp ht)
    | ok text =>
      rw [ht] at h
      have hc := parseRaw_iff.mp ht
      dsimp only at h
      split at h
      · rename_i hf
        subst hf
        split at h
        · rename_i hp
          have hp := isInfix_iff.mp hp
          split at h
          · rename_i e' hl
            cases h
            exact .pem text true _ (Or.inr rfl) rfl hc (.priv _ hp hl)
          · rename_i n e' r hl
            have hr := RawKey.rsaPrivate (pw := pw) text n e' r hc hp hl
            rw [rsaRaw (hlaw _ hr).1 (hlaw _ hr).2] at h
            cases h
          · rename_i k hn hl
            cases h
            refine .type text true k (Or.inr rfl) rfl hc (.priv _ hp hl) ?_
            intro ho
            cases ho
            exact hn _ _ _ rfl
        · rename_i hp
          have hp : ¬ Occurs (by! "PRIVATE") text := fun ho => hp (isInfix_iff.mpr ho)
          split at h
          · rename_i hp'
            have hp' := isInfix_iff.mp hp'
            split at h
            · rename_i e' hl
              cases h
              exact .pem text false _ (Or.inr rfl) rfl hc (.pub _ hp hp' hl)
            · rename_i n e' hl
              have hr := RawKey.rsaPublic (pw := pw) text n e' hc hp hp' hl
              rw [rsaRaw (hlaw _ hr).1 (hlaw _ hr).2] at h
              cases h
            · rename_i k hn hl
              cases h
              refine .type text false k (Or.inr rfl) rfl hc (.pub _ hp hp' hl) ?_
              intro ho
              cases ho
              exact hn _ _ rfl
          · rename_i hp'
            cases h
            exact .noKey text (Or.inr rfl) rfl hc hp (fun ho => hp' (isInfix_iff.mpr ho))
      · rename_i hf
        cases h
        exact .format text hin hc (fun hx => hx.elim hf (fun hx => absurd hx.1 (by decide)))

theorem dump_error {m : Material} {pub : Bool} {e : Exc} (h : m.dump pub = .error e) :
    pub = false ∧ ¬ HasSecretPart m ∧ e = .runtimeErr := by
  cases m with
  | oct s => cases h
  | ec c x y o => cases pub <;> cases o <;> cases h <;> simp [HasSecretPart]
  | rsa n e o => cases pub <;> cases o <;> cases h <;> simp [HasSecretPart]

theorem loadAsked {cr : Crypto} {raw : Bytes} {alg format : PyStr} {pub : Bool} {pw : Option Bytes} {options : Dict PyStr Val}
    {k : Kty} {e : Exc} (hk : Kty.ofName alg = some k) (h : materialParse cr k raw pw format = .error e) :
    Jwk.parse cr raw alg pub pw format options = .error e := by
  unfold Jwk.parse
  rw [hk]
  simp only [h]

/-- C119, as far as it holds: a raw key is refused with the error that says why. -/
theorem C119_partial (cr : Crypto) (raw : Bytes) (alg : PyStr) (pub : Bool) (pw : Option Bytes) (format : PyStr)
    (options : Dict PyStr Val) (hok : Dict.Ok options)
    (hlaw : ∀ m, RawKey cr raw pw alg format m → NoZero m ∧ m.Valid cr ∧ Extra m options) (e : Exc) :
    Jwk.parse cr raw alg pub pw format options = .error e ↔ ParseRefused cr raw alg pub pw format e := by
  have hlaw' : ∀ m, RawKey cr raw pw alg format m → NoZero m ∧ m.Valid cr := fun m hm => ⟨(hlaw m hm).1, (hlaw m hm).2.1⟩
  constructor
  · intro h
    cases hk : Kty.ofName alg with
    | none =>
      unfold Jwk.parse at h
      rw [hk] at h
      cases h
      exact .algorithm (fun hin => by obtain ⟨k, hk'⟩ := keyTypes_iff.mp hin; rw [hk] at hk'; cases hk')
    | some k =>
      cases hm : materialParse cr k raw pw format with
      | error e' =>
        rw [loadAsked hk hm] at h
        cases h
        exact materialParse_refused pub hlaw' hk hm
      | ok m =>
        have hr := (parse_material hlaw' m).mp ⟨k, hk, hm⟩
        cases hd : m.dump pub with
        | error e' =>
          obtain ⟨hp, hs, rfl⟩ := dump_error hd
          unfold Jwk.parse at h
          rw [hk] at h
          simp only [hm, hd] at h
          cases h
          exact .public m hr hp hs
        | ok d =>
          obtain ⟨key, hkey, -⟩ := (C92_parse cr raw alg pub pw format options hok hlaw (if pub then publicPart m else m)).mpr
            ⟨m, hr, fun hp => by
              subst hp
              rcases (dump_ok_iff m false).mp ⟨d, hd⟩ with h | h
              · cases h
              · exact (secret_iff m).mp h, rfl⟩
          rw [h] at hkey
          cases hkey
  · intro h
    cases h with
    | algorithm h =>
      have hk : Kty.ofName alg = none := by
        cases hk : Kty.ofName alg with
        | none => rfl
        | some k => exact absurd (keyTypes_iff.mpr ⟨k, hk⟩) h
      unfold Jwk.parse
      rw [hk]
    | file e h hf =>
      obtain ⟨k, hk⟩ := keyTypes_iff.mp h
      refine loadAsked hk ?_
      cases k <;> simp only [materialParse, octParse, ecParse, rsaParse, parseRaw_error.mpr hf]
    | format text h hc hf =>
      obtain ⟨k, hk⟩ := keyTypes_iff.mp h
      refine loadAsked hk ?_
      have h1 : format ≠ py! "pem" := fun h => hf (Or.inl h)
      cases Kty.ofName_some hk
      cases k with
      | oct =>
        have h2 : format ≠ py! "der" := fun h => hf (Or.inr ⟨rfl, h⟩)
        simp only [materialParse, octParse, parseRaw_iff.mpr hc, if_neg h1, if_neg h2]
      | ec => simp only [materialParse, ecParse, parseRaw_iff.mpr hc, if_neg h1]
      | rsa => simp only [materialParse, rsaParse, parseRaw_iff.mpr hc, if_neg h1]
    | mark text m h hf hc hm ho =>
      subst h hf
      exact C93_partial cr raw text pub pw options hc m hm ho
    | base64 text e h hf hc hm hs =>
      subst h hf
      refine loadAsked (k := .oct) rfl ?_
      simp only [materialParse, octParse, parseRaw_iff.mpr hc, marks_iff.mpr hm, hs, if_true, Bool.false_eq_true, if_false]
    | noKey text h hf hc hp hp' =>
      subst hf
      have h1 : isInfix (by! "PRIVATE") text ≠ true := fun h => hp (isInfix_iff.mp h)
      have h2 : isInfix (by! "PUBLIC") text ≠ true := fun h => hp' (isInfix_iff.mp h)
      rcases h with rfl | rfl
      · refine loadAsked (k := .ec) rfl ?_
        simp only [materialParse, ecParse, parseRaw_iff.mpr hc, if_true, if_neg h1, if_neg h2]
      · refine loadAsked (k := .rsa) rfl ?_
        simp only [materialParse, rsaParse, parseRaw_iff.mpr hc, if_true, if_neg h1, if_neg h2]
    | pem text b e h hf hc hr =>
      subst hf
      rcases h with rfl | rfl
      · refine loadAsked (k := .ec) rfl ?_
        cases hr with
        | priv _ hp hl => simp only [materialParse, ecParse, parseRaw_iff.mpr hc, if_true, isInfix_iff.mpr hp, hl]
        | pub _ hp hp' hl =>
          have h1 : isInfix (by! "PRIVATE") text ≠ true := fun h => hp (isInfix_iff.mp h)
          simp only [materialParse, ecParse, parseRaw_iff.mpr hc, if_true, isInfix_iff.mpr hp', if_neg h1, hl]
      · refine loadAsked (k := .rsa) rfl ?_
        cases hr with
        | priv _ hp hl => simp only [materialParse, rsaParse, parseRaw_iff.mpr hc, if_true, isInfix_iff.mpr hp, hl]
        | pub _ hp hp' hl =>
          have h1 : isInfix (by! "PRIVATE") text ≠ true := fun h => hp (isInfix_iff.mp h)
          simp only [materialParse, rsaParse, parseRaw_iff.mpr hc, if_true, isInfix_iff.mpr hp', if_neg h1, hl]
    | type text b k h hf hc hr ho =>
      subst hf
      rcases h with rfl | rfl
      · refine loadAsked (k := .ec) rfl ?_
        cases hr with
        | priv _ hp hl =>
          simp only [materialParse, ecParse, parseRaw_iff.mpr hc, if_true, isInfix_iff.mpr hp, hl]
          cases k with
          | ecPriv c x y d =>
            cases c with
            | none => exact ecRaw_none_error
            | some c => exact absurd (.ecPriv c x y d) ho
          | _ => rfl
        | pub _ hp hp' hl =>
          have h1 : isInfix (by! "PRIVATE") text ≠ true := fun h => hp (isInfix_iff.mp h)
          simp only [materialParse, ecParse, parseRaw_iff.mpr hc, if_true, isInfix_iff.mpr hp', if_neg h1, hl]
          cases k with
          | ecPub c x y =>
            cases c with
            | none => exact ecRaw_none_error
            | some c => exact absurd (.ecPub c x y) ho
          | _ => rfl
      · refine loadAsked (k := .rsa) rfl ?_
        cases hr with
        | priv _ hp hl =>
          simp only [materialParse, rsaParse, parseRaw_iff.mpr hc, if_true, isInfix_iff.mpr hp, hl]
          cases k with
          | rsaPriv n e r => exact absurd (.rsaPriv n e r) ho
          | _ => rfl
        | pub _ hp hp' hl =>
          have h1 : isInfix (by! "PRIVATE") text ≠ true := fun h => hp (isInfix_iff.mp h)
          simp only [materialParse, rsaParse, parseRaw_iff.mpr hc, if_true, isInfix_iff.mpr hp', if_neg h1, hl]
          cases k with
          | rsaPub n e => exact absurd (.rsaPub n e) ho
          | _ => rfl
    | «public» m h hp hs =>
      obtain ⟨k, hk, hm⟩ := (parse_material hlaw' m).mpr h
      subst hp
      have hd : m.dump false = .error .runtimeErr := by
        cases m with
        | oct s => exact absurd trivial hs
        | ec c x y o =>
          cases o with
          | none => rfl
          | some d => exact absurd (by simp [HasSecretPart]) hs
        | rsa n e o =>
          cases o with
          | none => rfl
          | some d => exact absurd (by simp [HasSecretPart]) hs
      unfold Jwk.parse
      rw [hk]
      simp only [hm, hd]

/-- C119 fails: a public key where the private key is asked for, and a secret that is not base64, are refused with errors that are not
among those of the library. -/
theorem C119_refuted (cr : Crypto) (raw text : Bytes) (pw : Option Bytes) (hc : Content cr raw text) (c : Curve) (x y : Nat)
    (hp : ¬ Occurs (by! "PRIVATE") text) (hp' : Occurs (by! "PUBLIC") text) (hl : cr.loadPemPublic text = .ok (.ecPub (some c) x y))
    (hz : NoZero (.ec c x y none)) (hv : (Material.ec c x y none).Valid cr) :
    Jwk.parse cr raw (py! "EC") false pw (py! "pem") [] = .error .runtimeErr ∧
      ∀ raw', cr.readFile raw' = .ok (some (by! "A")) → Jwk.parse cr raw' (py! "oct") false pw (py! "pem") [] = .error .binascii := by
  have hr := RawKey.ecPublic (pw := pw) text c x y hc hp hp' hl
  constructor
  · refine (C119_partial cr raw (py! "EC") false pw (py! "pem") [] List.nodup_nil ?_ _).mpr (.public _ hr rfl (by simp [HasSecretPart]))
    intro m hm
    cases C92_one cr raw pw _ _ _ _ hr hm
    exact ⟨hz, hv, fun _ _ => rfl⟩
  · intro raw' hf
    refine (C119_partial cr raw' (py! "oct") false pw (py! "pem") [] List.nodup_nil (rawOct_law _ _ _) _).mpr
      (.base64 (by! "A") _ rfl rfl (Or.inl hf) ?_ rfl)
    exact marks_iff.mp (by decide +kernel)

/-- The toy key is a public key on the curve. -/
example : Jwk.parse toyCrypto (by! "PUBLIC") (py! "EC") false none (py! "pem") [] = .error .runtimeErr :=
  (C119_refuted toyCrypto _ _ none (Or.inr ⟨rfl, rfl⟩) .p256 5 5 (fun h => absurd (isInfix_iff.mpr h) (by decide)) ⟨[], [], rfl⟩ rfl
    (by simp [NoZero]) ⟨by decide, nofun⟩).1

/-- Each kind of refusal. -/
example : Jwk.parse toyCrypto (by! "PUBLIC") (py! "OKP") true none (py! "pem") [] = .error (.jose .unsupportedAlgorithm) ∧
    Jwk.parse toyCrypto (by! "PUBLIC") (py! "EC") true none (py! "der") [] = .error (.jose .unsupportedParsingMethod) ∧
    Jwk.parse toyCrypto (by! "PUBLIC") (py! "oct") true none (py! "raw") [] = .error (.jose .unsupportedParsingMethod) ∧
    Jwk.parse toyCrypto (by! "PUBLIC") (py! "RSA") true none (py! "pem") [] = .error (.jose .invalidKey) ∧
    Jwk.parse toyCrypto (by! "PUBLISHED") (py! "EC") true none (py! "pem") [] = .error (.jose .invalidKey) := by
  have pub : ¬ Occurs (by! "PRIVATE") (by! "PUBLIC") := fun h => absurd (isInfix_iff.mpr h) (by decide)
  refine ⟨?_, ?_, ?_, ?_, ?_⟩
  · exact (C119_partial toyCrypto _ _ true none _ [] List.nodup_nil (fun m h => by cases h) _).mpr (.algorithm (by decide))
  · exact (C119_partial toyCrypto _ _ true none _ [] List.nodup_nil (fun m h => by cases h) _).mpr
      (.format _ (by decide) (Or.inr ⟨rfl, rfl⟩) (by rintro (h | ⟨h, -⟩) <;> exact absurd h (by decide)))
  · exact (C119_partial toyCrypto _ _ true none _ [] List.nodup_nil (rawOct_law _ _ _) _).mpr
      (.format _ (by decide) (Or.inr ⟨rfl, rfl⟩) (by rintro (h | ⟨-, h⟩) <;> exact absurd h (by decide)))
  · refine (C119_partial toyCrypto _ _ true none _ [] List.nodup_nil ?_ _).mpr
      (.type _ false _ (Or.inr rfl) rfl (Or.inr ⟨rfl, rfl⟩) (.pub _ pub ⟨[], [], rfl⟩ rfl) nofun)
    intro m h
    cases h with
    | rsaPrivate _ _ _ _ _ _ h => cases h
    | rsaPublic _ _ _ _ _ _ h => cases h
  · refine (C119_partial toyCrypto _ _ true none _ [] List.nodup_nil ?_ _).mpr
      (.noKey _ (Or.inl rfl) rfl (Or.inr ⟨rfl, rfl⟩) (fun h => absurd (isInfix_iff.mpr h) (by decide))
        (fun h => absurd (isInfix_iff.mpr h) (by decide)))
    intro m h
    cases h with
    | ecPrivate _ _ _ _ _ _ _ hl =>
      cases hl
      exact ⟨by simp [NoZero], ⟨rfl, by intro n h; cases h; rfl⟩, fun _ _ => rfl⟩
    | ecPublic _ _ _ _ _ _ _ hl =>
      cases hl
      exact ⟨by simp [NoZero], ⟨rfl, nofun⟩, fun _ _ => rfl⟩

end Psion.Props
