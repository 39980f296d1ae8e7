import Verif.OAuth.Oidc
import Verif.Props.JwtExact

/-!
# Property C91: the claims of an ID token
-/

namespace Psion.Props

open Psion Psion.Spec

/-- OpenID Connect Core 1.0, sections 2 and 3.1.3.7: what claims of an ID token must meet in addition to those of any token. The
time of the authentication is a number, and if a nonce is expected it is the one of the token. A nonce is expected by an option
with a value, as any other claim. -/
structure IdTokenOk (c options : Dict PyStr Val) : Prop where
  authTime : dget c (py! "auth_time") = .none ∨ ∃ i, dget c (py! "auth_time") = .int i
  nonce : ∀ o n, Dict.get options (py! "nonce") = some (.dict o) → Dict.get o (py! "value") = some (.str n) → n ≠ [] →
    dget c (py! "nonce") = .str n

/-- What is checked instead: the type of `max_age`, and that the claim `nonce` is the option itself, if this is not empty. -/
structure IdTokenChecked (c options : Dict PyStr Val) : Prop where
  maxAge : dget c (py! "max_age") = .none ∨ ∃ i, dget c (py! "max_age") = .int i
  nonce : (dget options (py! "nonce")).truthy = true → (dget options (py! "nonce")).pyEq (dget c (py! "nonce")) = true

/-- The options, none if there are none. -/
def optionsOf : Val → Dict PyStr Val
  | .dict o => o
  | _ => []

/-- C91, as far as it holds: `IDToken(claims, options)` succeeds exactly for claims of the right types that are valid at this time
and meet the options, if moreover `max_age` (not `auth_time`) is an integer and the claim `nonce` is the option `nonce` itself. -/
theorem C91_partial (now : Int) (c : Dict PyStr Val) (options : Val) (claims : Dict PyStr Val) :
    idTokenInit now c options = .ok claims ↔
      claims = fullDict c ∧ c ≠ [] ∧ ClaimTypes c ∧ InWindow now c ∧ OptionsMet c (optionsOf options) ∧
        IdTokenChecked c (optionsOf options) := by
  have hage : checkMaxAge c = .ok () ↔ dget c (py! "max_age") = .none ∨ ∃ i, dget c (py! "max_age") = .int i := by
    unfold checkMaxAge
    cases dget c (py! "max_age") <;> simp
  have hnonce : ∀ o, checkNonce o c = .ok () ↔ ((dget o (py! "nonce")).truthy = true →
      (dget o (py! "nonce")).pyEq (dget c (py! "nonce")) = true) := by
    intro o
    unfold checkNonce
    cases (dget o (py! "nonce")).truthy <;> cases (dget o (py! "nonce")).pyEq (dget c (py! "nonce")) <;> simp
  have hopt : (∀ o, options = .dict o → validateClaims c o = .ok ()) ↔ OptionsMet c (optionsOf options) := by
    cases options with
    | dict o =>
      rw [optionsOf, ← C80_options]
      exact ⟨fun h => h o rfl, fun h o' e => by cases e; exact h⟩
    | _ =>
      constructor
      · intro _ pre k o post e
        exact absurd e (by cases pre <;> simp [optionsOf])
      · intro _ o e
        cases e
  have hdef : idTokenInit now c options = if c = [] then .error (.jose .invalidJWTClaim) else
      match validateDefaultClaims now c with
      | .error e => .error e
      | .ok _ =>
        match checkMaxAge c with
        | .error e => .error e
        | .ok _ =>
          match checkNonce (optionsOf options) c with
          | .error e => .error e
          | .ok _ => claimsInit now (.dict c) options := by
    cases options <;> rfl
  rw [hdef]
  constructor
  · intro h
    split at h
    · cases h
    · split at h
      · cases h
      · split at h
        · cases h
        · rename_i h1
          split at h
          · cases h
          · rename_i h2
            obtain ⟨c', e, g1, g2, g3, g4, g5⟩ := claimsInit_ok.mp h
            cases e
            exact ⟨g2, g1, g3, g4, hopt.mp g5, hage.mp h1, (hnonce _).mp h2⟩
  · rintro ⟨rfl, h1, h2, h3, h4, h5⟩
    have h6 := claimsInit_ok.mpr ⟨c, rfl, h1, rfl, h2, h3, hopt.mpr h4⟩
    have h7 : validateDefaultClaims now c = .ok () := by
      unfold claimsInit at h6
      dsimp only at h6
      rw [if_neg h1] at h6
      exact (bind_ok_iff.mp h6).choose_spec.1
    rw [if_neg h1, h7, hage.mpr h5.maxAge, (hnonce _).mpr h5.nonce]
    exact h6

/-- C91 is violated: claims with a text as time of the authentication are accepted. -/
theorem C91_refuted_auth_time : ∃ claims, idTokenInit 50 [(py! "sub", .str (py! "u")), (py! "auth_time", .str (py! "now"))] .none = .ok claims ∧
    ¬ IdTokenOk [(py! "sub", .str (py! "u")), (py! "auth_time", .str (py! "now"))] [] := by
  refine ⟨_, rfl, ?_⟩
  rintro ⟨h | ⟨i, h⟩, -⟩ <;> cases h

/-- C91 is violated: the right nonce is refused if it is expected by an option with a value. -/
theorem C91_refuted_nonce (n : PyStr) (hn : n ≠ []) (now : Int) : 
    OptionsMet [(py! "nonce", .str n)] [(py! "nonce", .dict [(py! "value", .str n)])] ∧
    IdTokenOk [(py! "nonce", .str n)] [(py! "nonce", .dict [(py! "value", .str n)])] ∧
    idTokenInit now [(py! "nonce", .str n)] (.dict [(py! "nonce", .dict [(py! "value", .str n)])]) =
      .error (.jose .invalidJWTClaim) := by
  cases n with
  | nil => exact absurd rfl hn
  | cons a n =>
    refine ⟨?_, ⟨Or.inl rfl, ?_⟩, rfl⟩
    · rw [← C80_options]
      simp [validateClaims, optionStep, dget, Dict.get, Val.truthy, Val.isNone, (pyEq_str (v := .str (a :: n)) (s := a :: n)).mpr rfl]
    · intro o n' h1 h2 _
      cases h1
      cases h2
      rfl

/-- A nonce that is passed as it is, is checked. -/
example : idTokenInit 50 [(py! "sub", .str (py! "u")), (py! "nonce", .str (py! "n"))] (.dict [(py! "nonce", .str (py! "n"))]) =
      .ok [(py! "sub", .str (py! "u")), (py! "nonce", .str (py! "n"))] ∧
    idTokenInit 50 [(py! "sub", .str (py! "u")), (py! "nonce", .str (py! "m"))] (.dict [(py! "nonce", .str (py! "n"))]) =
      .error (.jose .invalidJWTClaim) := ⟨rfl, rfl⟩

end Psion.Props
