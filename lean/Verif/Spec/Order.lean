/-
Specification: what a topological sort of a graph (nodes with the nodes each refers to) is expected to do.
`strong_typing.topological.topological_sort`, an external function, is a parameter of the model; this is what is
assumed about it.  Model/Topo.lean has a function that provably meets it.
-/
import Verif.Basic
import Verif.Model.SqlType

set_option autoImplicit false

namespace PySqlSync.Spec
open PySqlSync

/-- `a` is listed before `b`. -/
def Before (l : List Text) (a b : Text) : Prop := ∃ p m s, l = p ++ a :: (m ++ b :: s)

/-- Either it raises, or it lists each node once, and each node after the other nodes that it refers to. -/
structure Sorts (topo : List (Text × List Text) → Except Err (List Text)) : Prop where
  perm : ∀ g l, (g.map Prod.fst).Nodup → topo g = .ok l → l.Perm (g.map Prod.fst)
  order : ∀ g l, (g.map Prod.fst).Nodup → (∀ p ∈ g, ∀ m ∈ p.2, m ∈ g.map Prod.fst) → topo g = .ok l →
    ∀ p ∈ g, ∀ m ∈ p.2, m ≠ p.1 → Before l m p.1

end PySqlSync.Spec
