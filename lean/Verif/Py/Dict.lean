import Verif.Py.Base

/-!
# Python dictionaries

A `dict` is an association list in insertion order. `Dict.Ok` says that no key occurs twice, which
is the case for every real Python dictionary; all operations preserve it.
-/

namespace Psion

/-- Python `dict` with keys `κ` and values `α`, in insertion order. -/
abbrev Dict (κ α : Type) := List (κ × α)

namespace Dict

variable {κ α : Type} [DecidableEq κ]

/-- `d.get(k)`. -/
def get (d : Dict κ α) (k : κ) : Option α :=
  match d with
  | [] => none
  | (k', v) :: d => if k' = k then some v else get d k

/-- `d[k] = v` of a plain `dict`: an existing key keeps its position. -/
def set (d : Dict κ α) (k : κ) (v : α) : Dict κ α :=
  match d with
  | [] => [(k, v)]
  | (k', v') :: d => if k' = k then (k', v) :: d else (k', v') :: set d k v

/-- `d.update(e)`. -/
def update (d e : Dict κ α) : Dict κ α :=
  e.foldl (fun d kv => set d kv.1 kv.2) d

/-- `dict(pairs)`: later pairs override earlier ones but keep the first position. -/
def ofPairs (l : List (κ × α)) : Dict κ α := update [] l

/-- `d.keys()`. -/
def keys (d : Dict κ α) : List κ := d.map Prod.fst

/-- `k in d`. -/
def mem (d : Dict κ α) (k : κ) : Bool := (get d k).isSome

/-- `d[k]`. -/
def getItem (d : Dict κ α) (k : κ) : Res α :=
  match get d k with
  | some v => .ok v
  | none => .error .keyErr

/-- No key occurs twice. -/
def Ok (d : Dict κ α) : Prop := (keys d).Nodup

end Dict
end Psion
