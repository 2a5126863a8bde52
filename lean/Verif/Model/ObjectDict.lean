/-
Model of pysqlsync/formation/object_dict.py.
-/
import Verif.Basic

namespace PySqlSync

/-- Objects with a name (id_types.py:71-77 `SupportsName`); the key of a collection is `item.name.local_id`. -/
class Named (α : Type) where
  key : α → Text

export Named (key)

/-- object_dict.py:10-11: an insertion-ordered `dict` from `item.name.local_id` to `item`.  Since the key is
    always computed from the item, the dictionary is represented by the list of its items, in order.
    (Simplification: renaming an item after it was inserted is not modelled.) -/
structure ODict (α : Type) where
  items : List α
deriving DecidableEq, Repr

namespace ODict
variable {α : Type} [Named α]

/-- `d[key] = item` on a Python dict: replaces in place, otherwise appends. -/
def setItem (items : List α) (a : α) : List α :=
  match items with
  | [] => [a]
  | b :: rest => if key b = key a then a :: rest else b :: setItem rest a

/-- object_dict.py:13-14 `__init__`: dict comprehension over the items. -/
def ofList (items : List α) : ODict α := ⟨items.foldl setItem []⟩

/-- `__contains__` (16-17). -/
def contains (d : ODict α) (k : Text) : Bool := d.items.any (fun a => key a = k)

/-- `get` (45-48) and `__getitem__` (25-26, where `none` is the KeyError). -/
def get (d : ODict α) (k : Text) : Option α := d.items.find? (fun a => key a = k)

/-- `add` (50-54); `none` is the ValueError. -/
def add (d : ODict α) (a : α) : Option (ODict α) :=
  if d.contains (key a) then none else some ⟨setItem d.items a⟩

/-- `remove` (56-57); `none` is the KeyError. -/
def remove (d : ODict α) (k : Text) : Option (ODict α) :=
  if d.contains k then some ⟨d.items.filter (fun a => key a ≠ k)⟩ else none

/-- `keys` (59-60). -/
def keys (d : ODict α) : List Text := d.items.map key

/-- `difference` (68-71). -/
def difference (d op : ODict α) : List α := d.items.filter (fun a => !op.contains (key a))

/-- `intersection` (73-79). -/
def intersection (d op : ODict α) : List (α × α) :=
  d.items.filterMap (fun a => (op.get (key a)).map (fun b => (a, b)))

/-- Order of Python strings: lexicographic by code point. -/
def keyLe (a b : Text) : Bool := decide (a ≤ b)

/-- `sort` (81-82): `sorted` is a stable sort on the key. (The items have distinct keys, so the tuple comparison
    never reaches the values.) -/
def sort (d : ODict α) : ODict α := ⟨d.items.mergeSort (fun a b => keyLe (key a) (key b))⟩

/-- `reorder` (84-85): dict comprehension over the order; `none` is the KeyError. -/
def reorder (d : ODict α) (order : List Text) : Option (ODict α) :=
  (order.mapM (fun k => d.get k)).map ofList

/-- `__eq__` (19-23) given the equality of items: Python dictionaries are equal iff they have the same keys and
    equal values, in whatever order. -/
def eqv [DecidableEq α] (d op : ODict α) : Bool :=
  d.items.length == op.items.length && d.items.all (fun a => op.get (key a) = some a)

end ODict
end PySqlSync
