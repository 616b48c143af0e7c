import Verif.Py.Str
/-
Specification of "insertion-ordered map with history": what a user expects of a registry after a sequence of
put / delete events.  Independent of the model.
-/

namespace Verif.Spec
open Verif (Str)

/-- One event on a registry. -/
inductive Ev (α : Type) where
  | put (k : Str) (v : α)
  | del (k : Str)

namespace Ev
variable {α : Type}

/-- The key an event is about. -/
def key : Ev α → Str
  | .put k _ => k
  | .del k => k

/-- `v` is what the last event about `k` put there: later events are about other keys. -/
def LastPut (h : List (Ev α)) (k : Str) (v : α) : Prop :=
  ∃ h1 h2, h = h1 ++ .put k v :: h2 ∧ ∀ o ∈ h2, o.key ≠ k

/-- Key `k` was (re)born at position `i` of the history: put there, not deleted later, and every earlier put of `k`
was followed by a delete before `i`. -/
def Born (h : List (Ev α)) (k : Str) (i : Nat) : Prop :=
  (∃ v, h[i]? = some (.put k v)) ∧ (∀ j, i < j → h[j]? ≠ some (.del k)) ∧
  (∀ j v, j < i → h[j]? = some (.put k v) → ∃ l, j < l ∧ l < i ∧ h[l]? = some (.del k))

/-- `names` lists exactly the keys present after `h`, each once, oldest birth first. -/
def Lists (h : List (Ev α)) (names : List Str) : Prop :=
  names.Nodup ∧ (∀ n, n ∈ names ↔ ∃ v, LastPut h n v) ∧ (∀ n ∈ names, ∃ i, Born h n i) ∧
  names.Pairwise (fun a b => ∀ i j, Born h a i → Born h b j → i < j)

end Ev
end Verif.Spec
