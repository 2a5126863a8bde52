/-
A topological sort by depth-first search, as in the external package `strong_typing`
(`strong_typing.topological.topological_sort`, called by pysqlsync/formation/object_types.py:853).  The package is not
part of /repo; this function is only a witness that what the theorems assume about it (`Spec.Sorts`) can be met, and
is used in examples.
-/
import Verif.Spec.Order

set_option autoImplicit false

namespace PySqlSync

/-- The nodes that a node refers to. -/
def adjacent (g : List (Text × List Text)) (n : Text) : List Text :=
  match g.find? (fun p => p.1 = n) with
  | some p => p.2
  | none => []

/-- Visit a node: `stack` are the nodes being visited, `done` those finished (in order). -/
def visit (g : List (Text × List Text)) : Nat → List Text → List Text → Text → Except Err (List Text)
  | 0, _, _, _ => .error .cycle
  | fuel + 1, stack, done, n =>
    if done.contains n then .ok done
    else if stack.contains n then .error .cycle
    else do
      let done' ← ((adjacent g n).filter (· ≠ n)).foldlM (fun done m => visit g fuel (n :: stack) done m) done
      return done' ++ [n]

def topoSort (g : List (Text × List Text)) : Except Err (List Text) :=
  (g.map Prod.fst).foldlM (fun done m => visit g (g.length + 2) [] done m) []

end PySqlSync
