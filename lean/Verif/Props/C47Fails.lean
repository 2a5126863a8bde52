/-
C47: the conditions on programs cannot be dropped.  For each of them a program that violates it, whose objects are generated without an error,
and whose script is refused or leads to a database that is not what the program describes.
-/
import Verif.Props.C47

set_option autoImplicit false

namespace PySqlSync
open Spec

namespace C47

/-- The objects of the program are generated without an error, but executing the script in an empty database does not lead to the database that the
    program describes. -/
def Undeployed (e : Engine) (g : GenOptions) (refs : List ClassDecl) (enums : List EnumDecl) : Prop :=
  ∃ C stmts, (Program.opts e g).toCatalog { classes := refs, enums := enums } 10 Program.sortClasses refs enums = .ok C ∧
    mutateCatalog Example.topo e.dialect {} ⟨⟨[]⟩⟩ C = .ok stmts ∧
    ∀ db, Runs (engine e.dialect namesIn) ⟨fun n => n = [], fun _ => none⟩ stmts db →
      ¬ Deployed (Program.opts e g) { classes := refs, enums := enums } refs e.dialect 10 db

def stmtsOf (e : Engine) (g : GenOptions) (refs : List ClassDecl) (enums : List EnumDecl) : Option (List Stmt) :=
  ((Program.opts e g).toCatalog { classes := refs, enums := enums } 10 Program.sortClasses refs enums).toOption.bind
    (fun C => (mutateCatalog Example.topo e.dialect {} ⟨⟨[]⟩⟩ C).toOption)

/-- The database after the script, if the names are right. -/
def final (e : Engine) (g : GenOptions) (refs : List ClassDecl) (enums : List EnumDecl) : Option Db :=
  (stmtsOf e g refs enums).bind (exec (engine e.dialect namesIn) ⟨fun n => n = [], fun _ => none⟩)

theorem undeployed {e : Engine} {g : GenOptions} {refs : List ClassDecl} {enums : List EnumDecl} (h : (stmtsOf e g refs enums).isSome = true)
    (hx : ∀ db, final e g refs enums = some db →
      ¬ Deployed (Program.opts e g) { classes := refs, enums := enums } refs e.dialect 10 db) : Undeployed e g refs enums := by
  unfold stmtsOf at h
  cases hc : (Program.opts e g).toCatalog { classes := refs, enums := enums } 10 Program.sortClasses refs enums with
  | error x => simp [hc, Except.toOption] at h
  | ok C =>
    cases hm : mutateCatalog Example.topo e.dialect {} ⟨⟨[]⟩⟩ C with
    | error x => simp [hc, Except.toOption, hm] at h
    | ok stmts =>
      refine ⟨C, stmts, hc, hm, fun db hr => hx db ?_⟩
      simp [final, stmtsOf, hc, hm, Except.toOption, runs_exec hr]

/-- A column of a table. -/
def look (db : Db) (k : Key) (n : Text) : Option (Bool × ColState) :=
  match db.objs k with
  | some (.table ts) => (ts.cols n).map (fun c => (ts.pk.contains n, c))
  | _ => none

theorem look_some {db : Db} {k : Key} {n : Text} {b : Bool} {cs : ColState} (h : look db k n = some (b, cs)) :
    ∃ ts, db.objs k = some (.table ts) ∧ ts.cols n = some cs ∧ ts.pk.contains n = b := by
  unfold look at h
  split at h
  · rename_i ts hts
    obtain ⟨c, hc, e⟩ := Option.map_eq_some_iff.1 h
    cases e
    exact ⟨ts, hts, hc, rfl⟩
  · cases h

/-- The column is not what the field says, or is none that a database can have. -/
theorem undeployed_column {e : Engine} {g : GenOptions} {refs : List ClassDecl} {enums : List EnumDecl} {c : ClassDecl} (hc : c ∈ refs) (hk : c.key.isSome = true)
    {q : QId} (hq : (Program.opts e g).qualifiedId c.name = .ok q) {n : Text} {b : Bool} {cs : ColState}
    (hl : (final e g refs enums).bind (fun db => look db q.key n) = some (b, cs))
    (hbad : (∀ f ∈ c.fields, f.name = n → f.nullable ≠ cs.nullable ∨ (f.default.isSome ≠ cs.default.isSome)
        ∨ (f.default.map (defaultExpr e.dialect cs.ty) ≠ cs.default)) ∨
      (cs.identity = true ∧ (cs.nullable = true ∨ cs.default ≠ none)) ∨ (b = true ∧ cs.nullable = true)) : Undeployed e g refs enums := by
  have h : (stmtsOf e g refs enums).isSome = true := by
    cases hs : stmtsOf e g refs enums with
    | none => simp [final, hs] at hl
    | some l => rfl
  refine undeployed h fun db hdb dep => ?_
  rw [hdb] at hl
  obtain ⟨ts, hts, hcs, hb⟩ := look_some hl
  rcases hbad with hbad | ⟨hi, hbad⟩ | ⟨rfl, hn⟩
  · obtain ⟨f, hf, hfn, _, hcol⟩ := (dep.columns c hc hk q hq ts hts n cs).1 hcs
    rcases hbad f hf hfn with h | h | h
    · exact h hcol.nullable.symm
    · apply h; rw [hcol.default, Option.isSome_map]
    · exact h hcol.default.symm
  · have ok := ((dep.valid.fits _ _ hts).cols n cs hcs).1 hi
    rcases hbad with h | h
    · rw [ok.1] at h; cases h
    · exact h ok.2
  · obtain ⟨c', hc', hn'⟩ := (dep.valid.fits _ _ hts).pk n (List.contains_iff_mem.1 hb)
    rw [hcs] at hc'
    cases hc'
    rw [hn] at hn'; cases hn'

theorem undeployed_dangling {e : Engine} {g : GenOptions} {refs : List ClassDecl} {enums : List EnumDecl} (i : Nat) (k : Key) (n : Text)
    (hl : ((stmtsOf e g refs enums).bind (fun l => (exec (engine e.dialect namesIn) ⟨fun n => n = [], fun _ => none⟩ (l.take i)).map
      (fun db => dangling db k n))) = some true) : Undeployed e g refs enums := by
  cases hs : stmtsOf e g refs enums with
  | none => simp [hs] at hl
  | some l =>
    rw [hs] at hl
    unfold stmtsOf at hs
    cases hc : (Program.opts e g).toCatalog { classes := refs, enums := enums } 10 Program.sortClasses refs enums with
    | error x => simp [hc, Except.toOption] at hs
    | ok C =>
      cases hm : mutateCatalog Example.topo e.dialect {} ⟨⟨[]⟩⟩ C with
      | error x => simp [hc, Except.toOption, hm] at hs
      | ok stmts =>
        simp only [hc, hm, Except.toOption, Option.bind_some, Option.some.injEq] at hs
        subst hs
        refine ⟨C, stmts, hc, hm, fun db hr => absurd hr ?_⟩
        refine broken i (k := k) (n := n) ⟨fun _ _ h => (by cases h), fun _ _ h => (by cases h)⟩ ?_ db
        simp only [Option.bind_some] at hl
        rw [hl]; rfl

theorem undeployed_refused {e : Engine} {g : GenOptions} {refs : List ClassDecl} {enums : List EnumDecl} (h : (stmtsOf e g refs enums).isSome = true)
    (hl : (final e g refs enums).isSome = false) : Undeployed e g refs enums :=
  undeployed h fun db hdb => by rw [hdb] at hl; cases hl

def number : FieldDecl := { name := t "id", ty := .prim .int64, primary := true }
def shop (fields : List FieldDecl) : ClassDecl := { name := (t "shop", t "Shirt"), fields := fields }
def zooSize : EnumDecl := { name := (t "zoo", t "Size"), kind := .str, labels := [t "small", t "large"], constants := [t "'small'", t "'large'"] }
def animal : ClassDecl := { name := (t "zoo", t "Animal"), fields := [number, { name := t "size", ty := .enum zooSize.name }] }

end C47
open C47

/-- A key that is optional: the column of a key cannot be. -/
theorem C47_optional_key_fails : Undeployed .postgresql Program.gen0 [shop [{ number with nullable := true }]] [] :=
  undeployed_column (c := shop [{ number with nullable := true }]) (by simp) rfl (q := .qualified (some (t "shop")) (t "Shirt")) rfl (n := t "id")
    (b := true) (cs := { ty := .integer .base 8 true none none, nullable := true, default := none, identity := false }) (by decide +kernel) (.inr (.inr ⟨rfl, rfl⟩))

/-- A generated value with a default: there is no such column. -/
theorem C47_generated_default_fails : Undeployed .postgresql Program.gen0 [shop [number, { name := t "n", ty := .prim .int64, identity := true, default := some (t "3") }]] [] :=
  undeployed_column (c := shop [number, { name := t "n", ty := .prim .int64, identity := true, default := some (t "3") }]) (by simp) rfl
    (q := .qualified (some (t "shop")) (t "Shirt")) rfl (n := t "n")
    (b := false) (cs := { ty := .integer .base 8 true none none, nullable := false, default := some (t "3"), identity := true }) (by decide +kernel)
    (.inr (.inl ⟨rfl, .inr (by simp)⟩))

/-- A generated value that is optional: the column is not. -/
theorem C47_generated_optional_fails : Undeployed .postgresql Program.gen0 [shop [number, { name := t "n", ty := .prim .int64, identity := true, nullable := true }]] [] :=
  undeployed_column (c := shop [number, { name := t "n", ty := .prim .int64, identity := true, nullable := true }]) (by simp) rfl
    (q := .qualified (some (t "shop")) (t "Shirt")) rfl (n := t "n")
    (b := false) (cs := { ty := .integer .base 8 true none none, nullable := false, default := none, identity := true }) (by decide +kernel)
    (.inl (by
      intro f hf hn
      simp only [shop, List.mem_cons, List.not_mem_nil, or_false] at hf
      rcases hf with rfl | rfl
      · exact absurd hn (by decide +kernel)
      · exact .inl (by simp)))

/-- Delta: a default is lost. -/
theorem C47_delta_default_fails : Undeployed .delta Program.gen0 [shop [number, { name := t "n", ty := .prim .int64, default := some (t "3") }]] [] :=
  undeployed_column (c := shop [number, { name := t "n", ty := .prim .int64, default := some (t "3") }]) (by simp) rfl
    (q := .qualified (some (t "shop")) (t "Shirt")) rfl (n := t "n")
    (b := false) (cs := { ty := .integer .base 8 true none none, nullable := false, default := none, identity := false }) (by decide +kernel)
    (.inl (by
      intro f hf hn
      simp only [shop, List.mem_cons, List.not_mem_nil, or_false] at hf
      rcases hf with rfl | rfl
      · exact absurd hn (by decide +kernel)
      · exact .inr (.inl (by simp))))

/-- An enumeration lists a label twice: the database refuses the type. -/
theorem C47_repeated_label_fails : Undeployed .postgresql Program.gen0 [animal] [{ zooSize with labels := [t "small", t "small"] }] :=
  undeployed_refused (by decide +kernel) (by decide +kernel)

/-- An enumeration of a module that has no table: the type is not created. -/
theorem C47_module_without_table_fails : Undeployed .postgresql Program.gen0 [shop [number, { name := t "size", ty := .enum zooSize.name }]] [zooSize] :=
  undeployed_dangling 2 (t "shop", t "Shirt") (t "size") (by decide +kernel)

/-- A list of members of an enumeration of another module, which in turn refers to the first: the table is created before the type. -/
theorem C47_list_of_other_module_fails : Undeployed .postgresql Program.gen0
    [shop [number, { name := t "sizes", ty := .list (.enum zooSize.name) }],
      { name := (t "zoo", t "Animal"), fields := [number, { name := t "shirt", ty := .cls (t "shop", t "Shirt") }] }] [zooSize] :=
  undeployed_dangling 3 (t "shop", t "Shirt") (t "sizes") (by decide +kernel)

/-- The same for an enumeration of a module that has no schema, even without a list. -/
theorem C47_module_without_schema_fails : Undeployed .postgresql { mapping := fun m => if m = t "zoo" then .ok none else .ok (some m) }
    [shop [number, { name := t "size", ty := .enum zooSize.name }],
      { name := (t "zoo", t "Animal"), fields := [number, { name := t "shirt", ty := .cls (t "shop", t "Shirt") }] }] [zooSize] :=
  undeployed_dangling 2 (t "shop", t "Shirt") (t "size") (by decide +kernel)

/-- The same programs without the fault are deployed: the condition is what matters. -/
example : (final .postgresql Program.gen0 [shop [number, { name := t "size", ty := .enum zooSize.name }], animal] [zooSize]).map
    (fun db => (dangling db (t "shop", t "Shirt") (t "size"), look db (t "shop", t "Shirt") (t "id"))) =
      some (false, some (true, { ty := .integer .base 8 true none none, nullable := false, default := none, identity := false })) := by decide +kernel

end PySqlSync
