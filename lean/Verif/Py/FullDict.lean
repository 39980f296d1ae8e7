import Verif.Py.Val

/-!
# `FullDict`

`/repo/src/psion/webtools.py:17-29`. Values are `Option α`: `none` is Python's `None`.
The model keeps the `Option` in the value type so that the effect of the operations that are *not*
overridden (`dict.update`) can be expressed.
-/

namespace Psion

/-- A dictionary with possibly `None` values. -/
abbrev NDict (κ α : Type) := Dict κ (Option α)

/-- `{k: v for k, v in d.items() if v is not None}`. -/
def dropNone {κ α : Type} (d : NDict κ α) : NDict κ α := d.filter (fun kv => kv.2.isSome)

variable {κ α : Type} [DecidableEq κ]

/-- `FullDict(data, **kwargs)`, `/repo/src/psion/webtools.py:22-25` (`copy.deepcopy` is the identity on values). -/
def FullDict.init (data kwargs : NDict κ α) : NDict κ α := dropNone (Dict.update data kwargs)

/-- `FullDict.__setitem__`, `/repo/src/psion/webtools.py:27-29`: a `None` value is ignored. -/
def FullDict.setItem (d : NDict κ α) (k : κ) (v : Option α) : NDict κ α :=
  match v with
  | some _ => Dict.set d k v
  | none => d

/-- `FullDict.update(e)`: inherited from `dict`, which in CPython does not call the overridden
`__setitem__`. -/
def FullDict.updateInherited (d e : NDict κ α) : NDict κ α := Dict.update d e

/-- `FullDict(d)` on a dictionary of JSON-like values (top-level `None` values are dropped). -/
def fullDict (d : Dict PyStr Val) : Dict PyStr Val := d.filter (fun kv => !kv.2.isNone)

end Psion
