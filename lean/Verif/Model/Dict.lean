import Verif.Model.Base

/-!
# Dictionaries

A Python `dict` as the list of its items in insertion order.
-/

namespace Gempak

/-- `d[k] = v`: an existing key keeps its place. -/
def dictSet {κ β : Type} [DecidableEq κ] : List (κ × β) → κ → β → List (κ × β)
  | [], k, v => [(k, v)]
  | (k', v') :: r, k, v => if k' = k then (k', v) :: r else (k', v') :: dictSet r k v

/-- `d.get(k)`. -/
def dictGet {κ β : Type} [DecidableEq κ] : List (κ × β) → κ → Option β
  | [], _ => none
  | (k', v') :: r, k => if k' = k then some v' else dictGet r k

/-- `d.update(items)`, and `dict(items)` from the empty dictionary. -/
def dictUpdate {κ β : Type} [DecidableEq κ] (d : List (κ × β)) (items : List (κ × β)) : List (κ × β) :=
  items.foldl (fun d kv => dictSet d kv.1 kv.2) d

/-- `d.pop(k, None)`. -/
def dictPop {κ β : Type} [DecidableEq κ] (d : List (κ × β)) (k : κ) : List (κ × β) := d.filter fun kv => kv.1 ≠ k

end Gempak
