import Verif.Spec.JoseErrors
import Verif.Jose.Jwk

/-!
# With which error a key set is refused
-/

namespace Psion.Spec

open Psion

/-- The ids of the keys of a set (`None` for a key without one) are refused with the error: the set is empty, an id is missing, an id
cannot be hashed, or two keys have the same id. -/
inductive IdsRefused : List Val → Exc → Prop
  | empty : IdsRefused [] (.jose .invalidKeySet)
  | missing {ids} : .none ∈ ids → IdsRefused ids (.jose .invalidKeySet)
  | unhashable {ids v} : .none ∉ ids → v ∈ ids → Unhashable v → IdsRefused ids .typeErr
  | repeated {pre mid post a b} : .none ∉ pre ++ a :: mid ++ b :: post → (∀ v ∈ pre ++ a :: mid ++ b :: post, ¬ Unhashable v) →
      Val.pyEq b a = true → IdsRefused (pre ++ a :: mid ++ b :: post) (.jose .invalidKeySet)

/-- A value that is loaded as a key set is refused with the error: it is no dictionary whose one member is `keys`; `keys` is nothing
that can be iterated; it is a text or a dictionary; it is a list with an item that is no key, and then the first of these says why;
or the ids of the keys are refused. -/
inductive KeySetRefused (cr : Crypto) : Val → Exc → Prop
  | format {v} : (∀ w, v ≠ .dict [(py! "keys", w)]) → KeySetRefused cr v (.jose .invalidKeySet)
  | scalar {w} : (∀ l, w ≠ .list l) → (∀ s, w ≠ .str s) → (∀ d, w ≠ .dict d) → KeySetRefused cr (.dict [(py! "keys", w)]) .typeErr
  | noText : KeySetRefused cr (.dict [(py! "keys", .str [])]) (.jose .invalidKeySet)
  | noMembers : KeySetRefused cr (.dict [(py! "keys", .dict [])]) (.jose .invalidKeySet)
  | text {s} : s ≠ [] → KeySetRefused cr (.dict [(py! "keys", .str s)]) (.jose .invalidKey)
  | members {d} : d ≠ [] → KeySetRefused cr (.dict [(py! "keys", .dict d)]) (.jose .invalidKey)
  | key {pre v post e} : (∀ u ∈ pre, ∃ k, Jwk.init cr u = .ok k) → Jwk.init cr v = .error e →
      KeySetRefused cr (.dict [(py! "keys", .list (pre ++ v :: post))]) e
  | ids {l : List Val} {ks : List Jwk} {e : Exc} : l.map (Jwk.init cr) = ks.map Except.ok → IdsRefused (ks.map (fun k => dget k.data (py! "kid"))) e →
      KeySetRefused cr (.dict [(py! "keys", .list l)]) e

end Psion.Spec
