import Verif.Props.Jwk
import Verif.Jose.Rfc7518Lemmas

/-!
# Property C101: the numbers of a key are written as RFC 7518 prescribes
-/

namespace Psion.Props

open Psion Psion.Spec

/-- C101, when it holds: a number of the key is written as RFC 7518 prescribes exactly if its fewest octets are as many as RFC 7518 wants.
For RSA these are the fewest, so that only zero is written otherwise. For a curve the size is fixed. -/
theorem C101_dump_partial (cr : Crypto) (d0 : Dict PyStr Val) (h0 : Dict.Ok d0) (key : Jwk) (hk : Jwk.init cr (.dict d0) = .ok key)
    (pub : Bool) (d : Dict PyStr Val) (hd : key.dump pub = .ok d) (k : PyStr) (n : Nat)
    (hn : numberOf (if pub then publicPart key.mat else key.mat) k = some n) :
    (Dict.get d k = some (octetText (rfcSize key.mat n) n) ↔ (bits n + 7) / 8 = rfcSize key.mat n) ∧
    ((∃ m e p, key.mat = .rsa m e p) → n ≠ 0 → Dict.get d k = some (octetText (fewest n) n)) := by
  obtain ⟨md, hm⟩ := dump_mat hd
  obtain ⟨h1, h2⟩ := dump_number hm hn
  have h3 : Dict.get d k = some (numVal n) := (get_dump_allowed hm hd (data_ok hk h0) h2).trans h1
  rw [h3]
  constructor
  · rw [Option.some.injEq, numVal_octetText]
  · rintro - hz
    rw [Option.some.injEq, numVal_octetText, fewest, if_neg hz]

/-- C101, reading: a key on a curve whose numbers are written as RFC 7518 prescribes is read as the key with these numbers. -/
theorem C101_load (cr : Crypto) (c : Curve) (x y : Nat) (o : Option Nat) (hx : x < 256 ^ coordinateSize c)
    (hy : y < 256 ^ coordinateSize c) (ho : ∀ n, o = some n → n < 256 ^ coordinateSize c ∧ cr.ecPrivOk c x y n = true)
    (hp : cr.ecPubOk c x y = true) (d : Dict PyStr Val) (h0 : Dict.get d (py! "self") = none)
    (h1 : Dict.get d (py! "kty") = some (.str (py! "EC"))) (h2 : Dict.get d (py! "crv") = some (.str c.name))
    (h3 : Dict.get d (py! "x") = some (octetText (coordinateSize c) x))
    (h4 : Dict.get d (py! "y") = some (octetText (coordinateSize c) y))
    (h5 : Dict.get d (py! "d") = o.map (octetText (coordinateSize c))) :
    ∃ key, Jwk.init cr (.dict d) = .ok key ∧ key.mat = .ec c x y o := by
  have hl : 0 < coordinateSize c := by cases c <;> decide
  refine ⟨⟨fullDict d, .ec c x y o⟩, jwkInit_ok.mpr ⟨d, rfl, rfl, dget_of_get h1, ?_⟩, rfl⟩
  show ecInit cr d = _
  unfold ecInit arg
  rw [if_neg (by rw [not_mem_self h0]; simp)]
  simp only [h2, h3, h4, ok_bind, Val.hashable, Bool.not_true, Bool.false_eq_true, if_false, Curve.ofName_name,
    b64ToIntV_octetText hl hx, b64ToIntV_octetText hl hy, hp]
  cases o with
  | none =>
    have : (dget d (py! "d")).truthy = false := by simp [dget, h5, Val.truthy]
    rw [this]; rfl
  | some n =>
    obtain ⟨hn, hpr⟩ := ho n rfl
    have e : dget d (py! "d") = octetText (coordinateSize c) n := dget_of_get h5
    rw [e, octetText_truthy hl hn]
    simp only [if_true, b64ToNat, b64ToIntV_octetText hl hn, ok_bind, hpr, Bool.not_true, Bool.false_eq_true, if_false]
    rfl

/-- C101 fails for curves: a public key whose first coordinate begins with a zero octet, read from the text of RFC 7518, is not written as this
text again; the coordinate is too short. -/
theorem C101_refuted (cr : Crypto) (c : Curve) (x y : Nat) (hx : x < 256 ^ (coordinateSize c - 1)) (hy : y < 256 ^ coordinateSize c)
    (hp : cr.ecPubOk c x y = true) :
    ∃ key d, Jwk.init cr (.dict [(py! "kty", .str (py! "EC")), (py! "crv", .str c.name), (py! "x", octetText (coordinateSize c) x),
        (py! "y", octetText (coordinateSize c) y)]) = .ok key ∧
      key.dump true = .ok d ∧ Dict.get d (py! "x") ≠ some (octetText (coordinateSize c) x) := by
  have hl : 0 < coordinateSize c := by cases c <;> decide
  have hx' : x < 256 ^ coordinateSize c := Nat.lt_of_lt_of_le hx (Nat.pow_le_pow_right (by decide) (by omega))
  obtain ⟨key, hk, hm⟩ := C101_load cr c x y none hx' hy (by simp) hp
    [(py! "kty", .str (py! "EC")), (py! "crv", .str c.name), (py! "x", octetText (coordinateSize c) x),
      (py! "y", octetText (coordinateSize c) y)] rfl rfl rfl rfl rfl rfl
  obtain ⟨d, hd⟩ := dump_public_exists key
  refine ⟨key, d, hk, hd, ?_⟩
  have h := (C101_dump_partial cr _ (by simp [Dict.Ok, Dict.keys]) key hk true d hd (py! "x") x (by rw [hm]; rfl)).1
  rw [hm] at h
  intro hc
  have h2 : (bits x + 7) / 8 = coordinateSize c := h.mp hc
  by_cases hz : x = 0
  · rw [hz] at h2
    simp [bits] at h2
    omega
  · have h3 : 2 ^ Nat.log2 x ≤ x := Nat.log2_self_le hz
    have h4 : 2 ^ Nat.log2 x < 2 ^ (8 * (coordinateSize c - 1)) := by
      rw [Nat.pow_mul]
      exact Nat.lt_of_le_of_lt h3 hx
    have h5 := (Nat.pow_lt_pow_iff_right (by decide)).mp h4
    unfold bits at h2
    rw [if_neg hz] at h2
    omega

/-! ### Concrete cases -/

/-- The key with the coordinates 5: read with 32 octets, written with one. -/
example : octetText 32 5 = .str (py! "AAAAAAAAAAAAAAAAAAAAAAAAAAAAAAAAAAAAAAAAAAU") ∧ numVal 5 = .str (py! "BQ") ∧
    toyCrypto.ecPubOk .p256 5 5 = true := by
  refine ⟨?_, ?_, rfl⟩ <;> rfl

/-- A coordinate without leading zero is written in full. -/
example : numVal (2 ^ 255 + 1) = octetText 32 (2 ^ 255 + 1) := numVal_octetText.mpr (by decide +kernel)

end Psion.Props
