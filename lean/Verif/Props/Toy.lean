import Verif.Py.JsonLemmas
import Verif.Spec.Jose

/-!
# Concrete external environments

Witnesses showing that the hypotheses about the external operations can be met. They are only used
in `example`s and in counterexamples.
-/

namespace Psion.Props

open Psion

/-- Floats written as the decimal value of their bits followed by `.0`. -/
def toyFloat : FloatEnv where
  repr f := natStr f.val ++ [46, 48]
  parse s := ⟨natOfDigits (s.takeWhile isDigit) % 2 ^ 64, Nat.mod_lt _ (by decide)⟩

theorem toyFloat_laws : FloatLaws toyFloat := by
  refine ⟨?_, ?_⟩
  · intro f _
    refine ⟨false, natStr f.val, [46, 48], [], by simp [toyFloat], natStr_intPart _, Or.inr ?_,
      Or.inl rfl, by simp⟩
    exact ⟨48, [], rfl, by decide, by simp⟩
  · intro f _
    have h := (takeWhile_digits (t := natStr f.val) (rest := [46, 48]) (natStr_digits _)
      (by intro c hc; cases hc; decide)).1
    apply Fin.ext
    simp only [toyFloat]
    rw [h, natOfDigits_natStr]
    exact Nat.mod_eq_of_lt f.isLt

/-- Distinguishes hash and padding in the toy signatures. -/
def toyTag (h : Hash) (p : Option Padding) : Bytes :=
  [match h with
    | .sha256 => 1
    | .sha384 => 2
    | .sha512 => 3,
   match p with
    | none => 0
    | some .pkcs1v15 => 1
    | some .pss => 2]

/-- A toy signature scheme: the signature is a random byte followed by a description of the public
key, the parameters and the message. -/
def toyCrypto : Crypto where
  fe := toyFloat
  hmac h k m := toyTag h none ++ k ++ m
  ecPubOk _ x y := x != 0 && y != 0
  ecPrivOk _ x y d := x == d && y == d
  ecSign c x y _ h m seed := byte seed :: (toyTag h none ++ [byte c.name.length, byte x, byte y] ++ m)
  ecVerify c x y h m sig := sig.tail == toyTag h none ++ [byte c.name.length, byte x, byte y] ++ m &&
    !sig.isEmpty
  rsaPubOk n e := n != 0 && e != 0
  rsaPrivOk n _ r := n == r.p * r.q
  rsaRecover n _ _ := .ok (n, 1)
  rsaDmp1 d _ := .ok d
  rsaDmq1 d _ := .ok d
  rsaIqmp _ _ := .ok 1
  rsaSign n e _ p h m seed := .ok (byte seed :: (toyTag h (some p) ++ [byte n, byte e] ++ m))
  rsaVerify n e p h m sig :=
    .ok (sig.tail == toyTag h (some p) ++ [byte n, byte e] ++ m && !sig.isEmpty)
  readFile _ := .ok none
  loadPemPrivate _ _ := .ok (.ecPriv (some .p256) 5 5 5)
  loadPemPublic _ := .ok (.ecPub (some .p256) 5 5)

/-- In the toy scheme every signature is accepted by every key with the same public numbers. -/
theorem toyCrypto_genuine (m : Material) : Spec.GenuinePair toyCrypto m m := by
  intro h pad msg seed sig hs
  cases m with
  | ec c x y d =>
    cases pad with
    | some p => simp [Material.sign] at hs
    | none =>
      cases d with
      | none => simp [Material.sign] at hs
      | some d =>
        simp only [Material.sign, toyCrypto, Except.ok.injEq] at hs
        subst hs
        simp [Material.verify, toyCrypto]
  | oct s =>
    cases pad with
    | some p => simp [Material.sign] at hs
    | none =>
      simp only [Material.sign, Except.ok.injEq] at hs
      simp [Material.verify, hs]
  | rsa n e r =>
    cases pad with
    | none => simp [Material.sign] at hs
    | some p =>
      cases r with
      | none => simp [Material.sign] at hs
      | some r =>
        simp only [Material.sign, toyCrypto, Except.ok.injEq] at hs
        subst hs
        simp [Material.verify, toyCrypto]

end Psion.Props
