import Verif.Props.Webtools

/-!
# Authorization headers: exactly what is read from them
-/

namespace Psion.Props

open Psion Psion.Spec

/-! ## C66 -/

/-- C66: a bearer token is read from a header if and only if it is what follows the word `Bearer`, in any case, and white space
that contains a space. -/
theorem C66_bearer_exact (headers : Dict PyStr PyStr) (token : PyStr) :
    getBearerAuthorization headers = .ok (some token) ↔ SentFor headers (py! "bearer") token := by
  rw [getBearer_iff]
  simp only [authHeader_iff]
  exact Iff.rfl

example : getBearerAuthorization [(py! "Authorization", py! "bEARER  abc def ")] = .ok (some (py! "abc def ")) ∧
    Parts (py! "bEARER  abc def ") (py! "bEARER") (py! "abc def ") ∧ Spells (py! "bEARER") (py! "bearer") := by
  refine ⟨by decide, ⟨[], py! "  ", 97, py! "bc def ", by decide, by unfold Blank; decide, by unfold Blank; decide, by decide,
    by decide, by decide, by decide, by decide⟩, (spells_iff (by decide)).mp (by decide)⟩

/-- C08: credentials are read from a header if and only if it consists of the word `Basic`, in any case, white space that
contains a space, and a base64 text of the UTF-8 text `id:secret`. -/
theorem C08_basic_exact (headers : Dict PyStr PyStr) (id secret : PyStr) :
    getBasicAuthorization headers = .ok (some (id, secret)) ↔ Credentials headers id secret :=
  credentials_iff

/-- C09: exactly the header values with a space but without two words, and, for `Basic`, also those with non-ASCII characters
after the word, make the parsers raise. -/
theorem C09_exact (headers : Dict PyStr PyStr) :
    ((∃ e, getBearerAuthorization headers = .error e) ↔ NotTwoWords headers) ∧
    ((∃ e, getBasicAuthorization headers = .error e) ↔ MalformedBasic headers) :=
  ⟨notTwoWords_iff, malformedBasic_iff⟩

/-- A header that makes both raise, and one that makes only the Basic parser raise. -/
example : (∀ w t, ¬ Parts (py! "Basic ") w t) ∧ 32 ∈ (py! "Basic ") ∧
    Parts (py! "Basic " ++ [233]) (py! "Basic") [233] ∧ Spells (py! "Basic") (py! "basic") := by
  refine ⟨?_, by decide, (splitNone1_iff _ _ _).mp (by decide), (spells_iff (by decide)).mp (by decide)⟩
  intro w t h
  have := (splitNone1_iff _ _ _).mpr h
  revert this
  rw [show splitNone1 (py! "Basic ") = [py! "Basic"] from by decide]
  simp

/-! ## C07 -/

/-- C07: a `FullDict` is built from the members of the dictionary and of the keyword arguments, which take precedence; members
that are `None` are dropped. -/
theorem C07_construction {κ α : Type} [DecidableEq κ] (data kwargs : NDict κ α) (hd : Dict.Ok data) (hk : Dict.Ok kwargs)
    (k : κ) (v : Option α) :
    Dict.get (FullDict.init data kwargs) k = some v ↔
      v ≠ none ∧ (Dict.get kwargs k = some v ∨ Dict.get kwargs k = none ∧ Dict.get data k = some v) := by
  have hok := Dict.ok_update hd kwargs
  unfold FullDict.init dropNone
  rw [Dict.get_filter hok, Dict.get_update_ok hk]
  cases hkw : Dict.get kwargs k with
  | some w => cases w <;> cases v <;> simp
  | none =>
    cases hda : Dict.get data k with
    | none => simp
    | some w => cases w <;> cases v <;> simp

example : FullDict.init [(1, some 5), (2, some 6), (3, none)] [(2, some 7), (1, none), (4, some 8)] =
    [(2, some 7), (4, some 8)] := by decide

end Psion.Props
