import Verif.Example.Adapter

/-!
# Vocabulary for the ID tokens of the example application

Which claims about a user belong to which scope (OpenID Connect Core 1.0, section 5.4; `created_at` is an addition of the example
application).
-/

namespace Psion.Spec

open Psion Example

/-- The claims about the user, by the scope that permits to disclose them. -/
def scopeClaims (row : UserRow) : List (PyStr × List (PyStr × Val)) :=
  [(py! "profile",
      [(py! "given_name", .str row.givenName), (py! "middle_name", optVal row.middleName),
        (py! "family_name", .str row.familyName), (py! "nickname", optVal row.nickname),
        (py! "preferred_username", optVal row.preferredUsername), (py! "profile", optVal row.profile),
        (py! "picture", optVal row.picture), (py! "website", optVal row.website), (py! "gender", optVal row.gender),
        (py! "birthdate", optVal row.birthdate), (py! "zoneinfo", optVal row.zoneinfo), (py! "locale", optVal row.locale),
        (py! "created_at", .int row.createdAt), (py! "updated_at", .int row.updatedAt)]),
    (py! "email", [(py! "email", .str row.email), (py! "email_verified", .bool row.emailVerified)]),
    (py! "address", [(py! "address", row.address)]),
    (py! "phone", [(py! "phone_number", optVal row.phoneNumber), (py! "phone_number_verified", .bool row.phoneNumberVerified)])]

/-- The scopes permit to disclose the claim, and it has this value. -/
def Permitted (row : UserRow) (scopes : List PyStr) (claim : PyStr) (v : Val) : Prop :=
  ∃ scope ∈ scopes, ∃ claims, (scope, claims) ∈ scopeClaims row ∧ (claim, v) ∈ claims

/-- `v` is what may be said about the claim: the id of the user for `sub`; for the others their value, if one of the scopes permits
to disclose it, and nothing otherwise. -/
def Discloses (row : UserRow) (scopes : List PyStr) (claim : PyStr) (v : Val) : Prop :=
  claim = py! "sub" ∧ v = .str row.id ∨ claim ≠ py! "sub" ∧ Permitted row scopes claim v ∨
    claim ≠ py! "sub" ∧ (∀ v', ¬ Permitted row scopes claim v') ∧ v = .none

/-- What somebody who has the key of the example application learns from the ID token `tok`, whenever they check it within ten hours
after `now`: it comes from the example application, is for the client `client`, is about the user of the row, belongs to the
access token `access`, and discloses about the user exactly what the scopes permit. -/
def IdTokenSays (env : OEnv) (tok access client : PyStr) (row : UserRow) (scopes : List PyStr) (now : Int) : Prop :=
  ∃ bytes, utf8Encode access = .ok bytes ∧ ∃ sha, env.he.sha (py! "256") = some sha ∧
    ∀ n1 n2, now ≤ n1 → n1 < now + 36000 → now ≤ n2 → n2 < now + 36000 →
      ∃ t, Jwt.decodeStr env.cr n1 n2 tok exKey (some (py! "HS256")) true .none = .ok t ∧
        dget t.claims (py! "iss") = .str (py! "http://localhost:8000") ∧ dget t.claims (py! "aud") = .str client ∧
        dget t.claims (py! "sub") = .str row.id ∧
        dget t.claims (py! "iat") = .int now ∧ dget t.claims (py! "exp") = .int (now + 36000) ∧
        dget t.claims (py! "at_hash") = .str (asciiStr (b64urlEncode ((sha bytes).take ((sha bytes).length / 2)))) ∧
        ∀ k, k ∉ [py! "iss", py! "aud", py! "exp", py! "iat", py! "nbf", py! "at_hash"] →
          Discloses row scopes k (dget t.claims k)

end Psion.Spec
