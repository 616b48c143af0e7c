import Verif.Py.Str
/-
Python `dict` / `collections.OrderedDict` with string keys: an association list in insertion order.
-/

namespace Verif

/-- `OrderedDict` with string keys (dt/model.py:247-249, 561-562). -/
abbrev Dict (α : Type) := List (Str × α)

namespace Dict
variable {α : Type}

/-- `d.get(k, None)` (dt/model.py:296). -/
def get? : Dict α → Str → Option α
  | [], _ => none
  | (k', v) :: d, k => if k' = k then some v else get? d k

/-- `d[k] = v`: an existing key keeps its position, a new key goes to the end (dt/model.py:257). -/
def set : Dict α → Str → α → Dict α
  | [], k, v => [(k, v)]
  | (k', v') :: d, k, v => if k' = k then (k', v) :: d else (k', v') :: set d k v

/-- `d.pop(k, None)` without the returned value (dt/model.py:276). -/
def erase : Dict α → Str → Dict α
  | [], _ => []
  | (k', v') :: d, k => if k' = k then d else (k', v') :: erase d k

/-- `d.keys()` (dt/model.py:304). -/
def keys (d : Dict α) : List Str := d.map Prod.fst

/-- `d.values()` (dt/model.py:322). -/
def vals (d : Dict α) : List α := d.map Prod.snd

/-- `k in d` (dt/model.py:285). -/
def has (d : Dict α) (k : Str) : Bool := (d.get? k).isSome

end Dict
end Verif
