/-
A pair of catalogs used as an example in several files: between the two versions an enumeration type becomes a lookup
table (and a column its key), columns, constraints and composite attributes change, one schema appears and one
disappears.
-/
import Verif.Lemmas.Check
import Verif.Lemmas.CatSort
import Verif.Lemmas.Topo

set_option autoImplicit false

namespace PySqlSync.Example
open PySqlSync

def int4 : SqlType := .integer .base 4 true none none
def int8 : SqlType := .integer .base 8 true none none
def text : SqlType := .varChar .base none
def q (a b : String) : QId := .qualified (some (t a)) (t b)
def key0 (n : String) : Column := { name := t n, ty := int8, nullable := false, identity := true }
def col (n : String) (ty : SqlType) (nullable : Bool := true) (default : Option Text := none) : Column :=
  { name := t n, ty := ty, nullable := nullable, default := default }

def customer0 : Table where
  name := q "shop" "customer"
  columns := ⟨[key0 "id", col "name" text false, col "address" (.user (q "shop" "address")), col "fax" text]⟩
  primaryKey := [t "id"]
  constraints := ⟨[.unique (t "uq_name") [t "name"], .check (t "ch_name") (t "\"name\" <> ''")]⟩
  description := some (t "Those who buy.")

def customer1 : Table where
  name := q "shop" "customer"
  columns := ⟨[key0 "id", col "name" (.varChar .base (some 80)) false, col "address" (.user (q "shop" "address")),
    col "email" text true (some (t "''"))]⟩
  primaryKey := [t "id"]
  constraints := ⟨[.unique (t "uq_name") [t "name"], .unique (t "uq_email") [t "email"]]⟩
  description := some (t "Those who 'buy'.")

def order0 : Table where
  name := q "shop" "order"
  columns := ⟨[key0 "id", col "customer" int8 false, col "status" (.user (q "shop" "status")) false,
    col "total" int4 true (some (t "0"))]⟩
  primaryKey := [t "id"]
  constraints := ⟨[.foreign (t "fk_customer") [t "customer"] ⟨q "shop" "customer", [t "id"]⟩]⟩

def order1 : Table where
  name := q "shop" "order"
  columns := ⟨[key0 "id", col "customer" int8 false, col "status" int8 false, col "total" int8 false]⟩
  primaryKey := [t "id"]
  constraints := ⟨[.foreign (t "fk_customer") [t "customer"] ⟨q "shop" "customer", [t "id"]⟩,
    .foreign (t "fk_status") [t "status"] ⟨q "shop" "status", [t "id"]⟩]⟩

def status1 : Table where
  name := q "shop" "status"
  columns := ⟨[key0 "id", col "value" text false]⟩
  primaryKey := [t "id"]
  constraints := ⟨[.unique (t "uq_status") [t "value"]]⟩

def shop0 : Namespace where
  name := t "shop"
  enums := ⟨[⟨q "shop" "status", [t "open", t "paid"]⟩, ⟨q "shop" "kind", [t "a"]⟩]⟩
  structs := ⟨[{ name := q "shop" "address", members := ⟨[⟨t "street", text, none⟩, ⟨t "zip", int4, none⟩]⟩ }]⟩
  tables := ⟨[customer0, order0]⟩

def shop1 : Namespace where
  name := t "shop"
  enums := ⟨[⟨q "shop" "kind", [t "a", t "b"]⟩]⟩
  structs := ⟨[{ name := q "shop" "address", members := ⟨[⟨t "street", text, none⟩, ⟨t "zip", text, none⟩,
    ⟨t "kind", .user (q "shop" "kind"), none⟩]⟩ }]⟩
  tables := ⟨[customer1, order1, status1]⟩

def legacy0 : Namespace where
  name := t "legacy"
  enums := ⟨[⟨q "legacy" "flag", [t "y", t "n"]⟩]⟩
  tables := ⟨[{ name := q "legacy" "old"
                columns := ⟨[key0 "id", col "flag" (.user (q "legacy" "flag")), col "customer" int8]⟩
                primaryKey := [t "id"]
                constraints := ⟨[.foreign (t "fk_old") [t "customer"] ⟨q "shop" "customer", [t "id"]⟩]⟩ }]⟩

def audit1 : Namespace where
  name := t "audit"
  tables := ⟨[{ name := q "audit" "log"
                columns := ⟨[key0 "id", col "order" int8 false]⟩
                primaryKey := [t "id"]
                constraints := ⟨[.foreign (t "fk_log") [t "order"] ⟨q "shop" "order", [t "id"]⟩]⟩ }]⟩

def source : Catalog := ⟨⟨[legacy0, shop0]⟩⟩
def target : Catalog := ⟨⟨[audit1, shop1]⟩⟩

/-- The catalogs in reference order. -/
def source' : Catalog := ⟨⟨[shop0, legacy0]⟩⟩
def target' : Catalog := ⟨⟨[shop1, audit1]⟩⟩

/-- The topological sort of the examples. -/
def topo (g : List (Text × List Text)) : Except Err (List Text) :=
  topoSort (g.map (fun p => (p.1, p.2.filter (fun m => (g.map Prod.fst).contains m))))

theorem topo_sorts : Spec.Sorts topo := topoSort_sorts

theorem ok_of_toOption {α : Type} {x : Except Err α} {a : α} (h : x.toOption = some a) : x = .ok a := by
  cases x with
  | error e => cases h
  | ok b => simp [Except.toOption] at h; rw [h]

theorem source_sort : source.sort topo = .ok source' := ok_of_toOption (by decide +kernel)
theorem target_sort : target.sort topo = .ok target' := ok_of_toOption (by decide +kernel)

def E : Spec.Engine := Spec.engine .postgresql (fun _ => [t "name"])

theorem source_wf : Spec.CatWF .postgresql source := catWFB_ok (by decide +kernel)
theorem target_wf : Spec.CatWF .postgresql target := catWFB_ok (by decide +kernel)
theorem safe : Spec.CatSafe .postgresql E source' target' := catSafeB_ok (by decide +kernel)

/-- The script for the change. -/
def script : Except Err (List Stmt) := mutateCatalog topo .postgresql {} source target

theorem script_ok : ∃ stmts, script = .ok stmts ∧ stmts.length = 21 := by
  cases h : script with
  | error e =>
    have : script.toOption.isSome = true := by decide +kernel
    rw [h] at this; cases this
  | ok stmts =>
    refine ⟨stmts, rfl, ?_⟩
    have : script.toOption.map List.length = some 21 := by decide +kernel
    rw [h] at this
    simpa [Except.toOption] using this

end PySqlSync.Example
