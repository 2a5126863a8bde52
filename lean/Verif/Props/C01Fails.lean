/-
C01 — what `CatSafe` leaves out: pairs of catalogs, each describing a consistent database, for which the library emits
a script that the database refuses, or that leaves it in another state than the desired one.
-/
import Verif.Lemmas.Exec
import Verif.Examples.Shop

set_option autoImplicit false

namespace PySqlSync
open Spec

namespace Fails

/-- All that the theorem C01 asks of the catalogs themselves. -/
structure Fine (d : Dialect) (S T : Catalog) : Prop where
  wS : CatWF d S
  wT : CatWF d T
  vS : Valid (Catalog.db d (engine d (fun _ => [])) S)
  vT : Valid (Catalog.db d (engine d (fun _ => [])) T)

def fineB (d : Dialect) (S T : Catalog) : Bool :=
  catWFB d S && catWFB d T && catValidB d (engine d (fun _ => [])) S.namespaces.items
  && catValidB d (engine d (fun _ => [])) T.namespaces.items

theorem fineB_ok {d : Dialect} {S T : Catalog} (h : fineB d S T = true) : Fine d S T := by
  simp only [fineB, Bool.and_eq_true] at h
  exact ⟨catWFB_ok h.1.1.1, catWFB_ok h.1.1.2, catValidB_ok h.1.2, catValidB_ok h.2⟩

def script (d : Dialect) (S T : Catalog) : List Stmt :=
  ((mutateCatalog Example.topo d {} S T).toOption).getD []

theorem script_ok {d : Dialect} {S T : Catalog} (h : (mutateCatalog Example.topo d {} S T).toOption.isSome = true) :
    mutateCatalog Example.topo d {} S T = .ok (script d S T) := by
  unfold script
  cases hx : mutateCatalog Example.topo d {} S T with
  | error e => rw [hx] at h; cases h
  | ok l => rfl

/-- The claim of C01 is false for these catalogs: a script is emitted, and it does not do what it should. -/
def Fails (d : Dialect) (S T : Catalog) : Prop :=
  Fine d S T ∧ ∃ stmts, mutateCatalog Example.topo d {} S T = .ok stmts ∧
    ¬ Runs (engine d (fun _ => [])) (Catalog.db d (engine d (fun _ => [])) S) stmts
      (Catalog.db d (engine d (fun _ => [])) T)

theorem fails_of_refused {d : Dialect} {S T : Catalog} (h0 : fineB d S T = true)
    (h1 : (mutateCatalog Example.topo d {} S T).toOption.isSome = true)
    (h2 : (exec (engine d (fun _ => [])) (Catalog.db d (engine d (fun _ => [])) S) (script d S T)).isSome = false) :
    Fails d S T := ⟨fineB_ok h0, _, script_ok h1, refused h2 _⟩

theorem fails_of_broken {d : Dialect} {S T : Catalog} (i : Nat) (k : Key) (n : Text) (h0 : fineB d S T = true)
    (h1 : (mutateCatalog Example.topo d {} S T).toOption.isSome = true)
    (h2 : ((exec (engine d (fun _ => [])) (Catalog.db d (engine d (fun _ => [])) S) ((script d S T).take i)).map
      (fun db1 => dangling db1 k n)).getD false = true) : Fails d S T :=
  ⟨fineB_ok h0, _, script_ok h1, broken i (fineB_ok h0).vS h2 _⟩

/-- What a table looks like, as far as can be compared. -/
def look (db : Db) (k : Key) (col con : Text) : Option (List Text × Option ColState × Option ConState) :=
  match db.objs k with
  | some (.table ts) => some (ts.pk, ts.cols col, ts.cons con)
  | _ => none

theorem fails_of_different {d : Dialect} {S T : Catalog} (k : Key) (col con : Text) (h0 : fineB d S T = true)
    (h1 : (mutateCatalog Example.topo d {} S T).toOption.isSome = true)
    (h2 : ((exec (engine d (fun _ => [])) (Catalog.db d (engine d (fun _ => [])) S) (script d S T)).map
        (fun db => decide (look db k col con = look (Catalog.db d (engine d (fun _ => [])) T) k col con))).getD false
      = false) : Fails d S T := by
  refine ⟨fineB_ok h0, _, script_ok h1, ?_⟩
  intro hr
  rw [runs_exec hr] at h2
  simp at h2

open Example

def one (n : String) (tables : List Table) (enums : List EnumType := []) (structs : List StructType := []) : Namespace :=
  { name := t n, tables := ⟨tables⟩, enums := ⟨enums⟩, structs := ⟨structs⟩ }

def table (ns n : String) (cols : List Column) (pk : List String) (cons : List Constraint := []) : Table :=
  { name := q ns n, columns := ⟨cols⟩, primaryKey := pk.map t, constraints := ⟨cons⟩ }

def fk (n c ns tb : String) : Constraint := .foreign (t n) [t c] ⟨q ns tb, [t "id"]⟩

end Fails
open Fails Example

/-- The primary key is never altered: the script is empty although the states differ. -/
theorem C01_primary_key_change_fails : Fails .postgresql
    ⟨⟨[one "s" [table "s" "a" [key0 "id", col "x" int4 false] ["id"]]]⟩⟩
    ⟨⟨[one "s" [table "s" "a" [key0 "id", col "x" int4 false] ["x"]]]⟩⟩ :=
  fails_of_different (t "s", t "a") (t "x") (t "x") (by decide +kernel) (by decide +kernel) (by decide +kernel)

/-- PostgreSQL: dropping a column together with its constraint.  DROP COLUMN removes the constraint, then DROP
    CONSTRAINT does not find it. -/
theorem C01_drop_constrained_column_fails : Fails .postgresql
    ⟨⟨[one "s" [table "s" "a" [key0 "id", col "x" int8] ["id"] [fk "fk_x" "x" "s" "a"]]]⟩⟩
    ⟨⟨[one "s" [table "s" "a" [key0 "id"] ["id"]]]⟩⟩ :=
  fails_of_refused (by decide +kernel) (by decide +kernel) (by decide +kernel)

/-- PostgreSQL: an identity column becomes an ordinary nullable column; DROP NOT NULL comes before DROP IDENTITY. -/
theorem C01_identity_to_nullable_fails : Fails .postgresql
    ⟨⟨[one "s" [table "s" "a" [key0 "id", { key0 "n" with nullable := false }] ["id"]]]⟩⟩
    ⟨⟨[one "s" [table "s" "a" [key0 "id", col "n" int8] ["id"]]]⟩⟩ :=
  fails_of_refused (by decide +kernel) (by decide +kernel) (by decide +kernel)

/-- PostgreSQL: a unique constraint on a column that is converted from an enumeration to a key and keeps its name is
    lost: the old column is dropped, and with it the constraint, which is in both states and hence not added. -/
theorem C01_constraint_on_converted_column_fails : Fails .postgresql
    ⟨⟨[one "s" [table "s" "a" [key0 "id", col "k" (.user (q "s" "e"))] ["id"] [.unique (t "uq") [t "k"]]]
        [⟨q "s" "e", [t "v"]⟩]]⟩⟩
    ⟨⟨[one "s" [table "s" "a" [key0 "id", col "k" int8] ["id"] [.unique (t "uq") [t "k"], fk "fk_k" "k" "s" "e"],
        table "s" "e" [key0 "id", col "value" text false] ["id"]]]⟩⟩ :=
  fails_of_different (t "s", t "a") (t "k") (t "uq") (by decide +kernel) (by decide +kernel) (by decide +kernel)

/-- SQL Server: a converted column with a default.  Its default constraint `df_k` is created twice. -/
theorem C01_mssql_converted_default_fails : Fails .mssql
    ⟨⟨[one "s" [table "s" "a" [key0 "id", col "k" text true (some (t "'v'"))] ["id"]]]⟩⟩
    ⟨⟨[one "s" [table "s" "a" [key0 "id", col "k" int8 true (some (t "0"))] ["id"]]]⟩⟩ :=
  fails_of_refused (by decide +kernel) (by decide +kernel) (by decide +kernel)

/-- A schema gets a foreign key to a new table of another schema, which happens to be changed later. -/
theorem C01_foreign_key_to_later_namespace_fails : Fails .postgresql
    ⟨⟨[one "a" [table "a" "x" [key0 "id"] ["id"]], one "b" [table "b" "y" [key0 "id"] ["id"]]]⟩⟩
    ⟨⟨[one "a" [table "a" "x" [key0 "id", col "z" int8] ["id"] [fk "fk" "z" "b" "z"]],
       one "b" [table "b" "y" [key0 "id"] ["id"], table "b" "z" [key0 "id"] ["id"]]]⟩⟩ :=
  fails_of_broken 2 (t "a", t "x") (t "fk") (by decide +kernel) (by decide +kernel) (by decide +kernel)

/-- A table is dropped while a table of a schema that is changed later still refers to it. -/
theorem C01_drop_referenced_across_namespaces_fails : Fails .postgresql
    ⟨⟨[one "a" [table "a" "x" [key0 "id"] ["id"], table "a" "w" [key0 "id"] ["id"]],
       one "b" [table "b" "y" [key0 "id", col "x" int8] ["id"] [fk "fk" "x" "a" "x"]]]⟩⟩
    ⟨⟨[one "a" [table "a" "w" [key0 "id"] ["id"]], one "b" [table "b" "y" [key0 "id", col "x" int8] ["id"]]]⟩⟩ :=
  fails_of_broken 1 (t "b", t "y") (t "fk") (by decide +kernel) (by decide +kernel) (by decide +kernel)

/-- Removed schemas are emptied in the order in which they were created: a type goes before the table that uses it. -/
theorem C01_drop_namespace_order_fails : Fails .postgresql
    ⟨⟨[one "a" [] [⟨q "a" "e", [t "v"]⟩], one "b" [table "b" "y" [key0 "id", col "x" (.user (q "a" "e"))] ["id"]]]⟩⟩
    ⟨⟨[]⟩⟩ :=
  fails_of_broken 1 (t "b", t "y") (t "x") (by decide +kernel) (by decide +kernel) (by decide +kernel)

/-- A new schema uses a type that an existing schema is only about to get. -/
theorem C01_new_namespace_uses_new_type_fails : Fails .postgresql
    ⟨⟨[one "a" [table "a" "x" [key0 "id"] ["id"]]]⟩⟩
    ⟨⟨[one "a" [table "a" "x" [key0 "id"] ["id"]] [⟨q "a" "e", [t "v"]⟩],
       one "b" [table "b" "y" [key0 "id", col "x" (.user (q "a" "e"))] ["id"]]]⟩⟩ :=
  fails_of_broken 2 (t "b", t "y") (t "x") (by decide +kernel) (by decide +kernel) (by decide +kernel)

/-- An enumeration type takes the name of a table that is to be dropped. -/
theorem C01_table_to_enum_fails : Fails .postgresql
    ⟨⟨[one "a" [table "a" "x" [key0 "id"] ["id"]]]⟩⟩
    ⟨⟨[one "a" [] [⟨q "a" "x", [t "v"]⟩]]⟩⟩ :=
  fails_of_refused (by decide +kernel) (by decide +kernel) (by decide +kernel)

/-- Composite types are created in the order in which they are listed, whatever they refer to. -/
theorem C01_struct_order_fails : Fails .postgresql ⟨⟨[]⟩⟩
    ⟨⟨[one "a" [] [] [{ name := q "a" "x", members := ⟨[⟨t "m", .user (q "a" "y"), none⟩]⟩ },
      { name := q "a" "y", members := ⟨[⟨t "m", int4, none⟩]⟩ }]]⟩⟩ := by
  refine ⟨fineB_ok (by decide +kernel), _, script_ok (by decide +kernel), ?_⟩
  intro hr
  obtain ⟨db1, h1, v1, _⟩ := runs_take hr (fineB_ok (d := .postgresql) (S := ⟨⟨[]⟩⟩) (T := ⟨⟨[]⟩⟩) (by decide +kernel)).vS 2
  have he := runs_exec h1
  have hf : (exec (engine .postgresql fun _ => []) (Catalog.db .postgresql (engine .postgresql fun _ => []) ⟨⟨[]⟩⟩)
      ((script .postgresql ⟨⟨[]⟩⟩ ⟨⟨[one "a" [] [] [{ name := q "a" "x", members := ⟨[⟨t "m", .user (q "a" "y"), none⟩]⟩ },
        { name := q "a" "y", members := ⟨[⟨t "m", int4, none⟩]⟩ }]]⟩⟩).take 2)).map (fun db =>
          ((db.objs (t "a", t "x")).map (fun o => match o with
            | .struct attrs => decide (attrs (t "m") = some (.user (q "a" "y")))
            | _ => false), (db.objs (t "a", t "y")).isNone)) = some (some true, true) := by decide +kernel
  rw [he] at hf
  simp only [Option.map_some, Option.some.injEq, Prod.mk.injEq, Option.map_eq_some_iff] at hf
  obtain ⟨⟨o, ho, ha⟩, hn⟩ := hf
  have f := v1.fits _ _ ho
  cases o with
  | struct attrs =>
    simp only [decide_eq_true_eq] at ha
    have := f _ _ ha (t "a", t "y") (by decide +kernel)
    simp only [Option.isNone_iff_eq_none] at hn
    simp [Db.kinds, hn] at this
  | enum => cases ha
  | table => cases ha

end PySqlSync
