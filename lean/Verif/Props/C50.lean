/-
C50 — Lookup tables hold the members of their enumerations.
-/
import Verif.Lemmas.Members
import Verif.Props.C47
import Verif.Props.C49

set_option autoImplicit false

namespace PySqlSync
open Spec

open Dat in
/-- **C50.**  A lookup table that is new: after the script, its first rows are those of its values, in their order and with distinct generated
    numbers.  There are no others, unless the table takes the place of an enumeration type, or (MySQL) the labels of a converted column were
    added. -/
theorem C50_new_table {topo : List (Text × List Text) → Except Err (List Text)} {d : Dialect} {o : MutatorOptions} {R : RowEngine}
    (ht : Sorts topo) {S T : Catalog} (wS : CatWF d S) (wT : CatWF d T) {stmts : List Stmt} (h : mutateCatalog topo d o S T = .ok stmts)
    {tb : Table} (htb : IsTable T tb) (hnew : ∀ a, IsTable S a → a.name.key ≠ tb.name.key) (hid : t "id" ∈ tb.primaryKey)
    {vs : List Text} (hv : tb.enumValues = some vs) {D D' : Data} (hr : rowRun R D stmts = some D') :
    ∃ members others, D' tb.name.key = members ++ others
      ∧ Filled R ((tb.columns.items.filter (fun c => !tb.primaryKey.contains c.name && !c.identity)).map Column.name) vs members
      ∧ (FreshIds R → DistinctIds members)
      ∧ ((∀ a ∈ S.namespaces.items, ∀ e ∈ a.enums.items, e.name ≠ tb.name) → ¬ Fed d S T tb.name.key → others = []) := by
  obtain ⟨n, hn, htn⟩ := htb
  have wt := (wT.wf n hn).wf tb htn
  by_cases hg : (∀ a ∈ S.namespaces.items, ∀ e ∈ a.enums.items, e.name ≠ tb.name) ∧ ¬ Fed d S T tb.name.key
  · obtain ⟨P, lx, Q, rfl, hl, hQ⟩ := catalog_new (grow := false) ht wS wT h hn htn hnew
      (.inr ⟨hg.1, fun x y hx hy hxy => C49.unfed hg.2 hx hy hxy⟩)
    obtain ⟨D1, r1, hr⟩ := rowRun_append_some hr
    obtain ⟨D2, r2, r3⟩ := rowRun_append_some hr
    obtain ⟨hf, hdi⟩ := create_filled wt hl hv hid r2
    obtain ⟨ext, e, g⟩ := run_same hQ r3
    exact ⟨_, ext, e, hf, hdi, fun _ _ => g rfl⟩
  · obtain ⟨P, lx, Q, rfl, hl, hQ⟩ := catalog_new (grow := true) ht wS wT h hn htn hnew (.inl rfl)
    obtain ⟨D1, r1, hr⟩ := rowRun_append_some hr
    obtain ⟨D2, r2, r3⟩ := rowRun_append_some hr
    obtain ⟨hf, hdi⟩ := create_filled wt hl hv hid r2
    obtain ⟨ext, e, g⟩ := run_same hQ r3
    exact ⟨_, ext, e, hf, hdi, fun h1 h2 => absurd ⟨h1, h2⟩ hg⟩

namespace C50

variable {o : ConvOptions} {defs : PyDefs} {depth : Nat}

theorem label_table {e : EnumDecl} (hk : e.kind = .str ∨ e.kind = .int) (hi : o.initializeTables = true) {tb : Table}
    (h : o.enumTable defs depth e = .ok tb) :
    tb.enumValues = some (e.constants.map (fun s => t "(" ++ s ++ t ")")) ∧ tb.primaryKey = [t "id"]
      ∧ (tb.columns.items.filter (fun c => !tb.primaryKey.contains c.name && !c.identity)).map Column.name = [t "value"] := by
  unfold ConvOptions.enumTable at h
  rw [Conv.bind_ok] at h
  obtain ⟨name, h1, h2⟩ := h
  dsimp only at h2
  rcases hk with hk | hk <;>
  · rw [hk] at h2
    simp only [Conv.bind_ok, Conv.pure_ok] at h2
    obtain ⟨label, _, rfl⟩ := h2
    refine ⟨?_, rfl, ?_⟩
    · simp only [hi, if_true, ConvOptions.enumRows, hk]
    · rfl

end C50

open C50 Dat in
/-- **C50.**  Creating the objects of a program in an empty database, with initialization of tables: the table of an enumeration lists exactly
    the labels of the members, in their order, with distinct generated numbers. -/
theorem C50_created (e : Engine) (g : GenOptions) (o : ConvOptions) (_ho : e.options g = .ok o) (hi : o.initializeTables = true)
    (defs : PyDefs) (depth : Nat)
    (topoClasses : List ClassDecl → Except Err (List ClassDecl)) (ht : OrdersClasses topoClasses) (topo : List (Text × List Text) → Except Err (List Text)) (hs : Sorts topo)
    (refs : List ClassDecl) (enumRefs : List EnumDecl) (hd : Deployable o defs refs enumRefs e.dialect) (C : Catalog)
    (h : o.toCatalog defs depth topoClasses refs enumRefs = .ok C) (stmts : List Stmt) (hm : mutateCatalog topo e.dialect {} ⟨⟨[]⟩⟩ C = .ok stmts)
    (R : RowEngine) (D D' : Data) (hr : rowRun R D stmts = some D')
    (n : PyName) (hmk : Makes o defs refs (.enum n)) (x : EnumDecl) (hx : defs.enum n = some x) (hk : x.kind = .str ∨ x.kind = .int)
    (hread : x.constants.length = x.labels.length ∧
      ∀ p ∈ x.labels.zip x.constants, R.literal (t "(" ++ p.2 ++ t ")") = [.text p.1])
    (q : QId) (hq : o.qualifiedId n = .ok q) :
    (D' q.key).map (fun r => r (t "value")) = x.labels.map Val.text ∧ (FreshIds R → DistinctIds (D' q.key)) := by
  obtain ⟨tb, ns, hns, htb, hb, hname⟩ := Dep.table_of hd h hmk hq
  subst hname
  obtain ⟨x', hx', hb⟩ := hb
  rw [hx] at hx'
  cases hx'
  obtain ⟨h1, h2, h3⟩ := label_table hk hi hb
  have hnone : ∀ a, ¬ IsTable ⟨⟨[]⟩⟩ a := by rintro a ⟨n, hn, _⟩; cases hn
  obtain ⟨mem, oth, e1, hf, hdi, ho⟩ := C50_new_table (R := R) (topo := topo) (d := e.dialect) (o := {}) (S := ⟨⟨[]⟩⟩) (T := C) hs
    ⟨by simp [Distinct, ODict.Inv], fun n hn => by cases hn⟩ (Dep.wf hd ht.perm h) hm ⟨ns, hns, htb⟩ (fun a ha => absurd ha (hnone a))
    (by rw [h2]; exact List.mem_cons_self) h1 hr
  have := ho (fun a ha => by cases ha) (fun hfed => by
    obtain ⟨_, a, _, ha, _⟩ := hfed
    exact hnone a ha)
  subst this
  rw [List.append_nil] at e1
  rw [e1]
  refine ⟨?_, hdi⟩
  rw [h3] at hf
  refine List.ext_getElem? fun i => ?_
  rw [List.getElem?_map, List.getElem?_map]
  have hlen : mem.length = x.labels.length := by rw [hf.1, List.length_map, hread.1]
  by_cases hi : i < mem.length
  · have hi2 : i < x.labels.length := by omega
    have hi3 : i < x.constants.length := by omega
    rw [List.getElem?_eq_getElem hi, List.getElem?_eq_getElem hi2]
    have h4 := (hf.2 i _ _ (by rw [List.getElem?_map, List.getElem?_eq_getElem hi3]; rfl) (List.getElem?_eq_getElem hi)).1 0 (t "value")
    have h5 := hread.2 (x.labels[i], x.constants[i]) (by
      rw [List.mem_iff_getElem]
      exact ⟨i, by rw [List.length_zip]; omega, by rw [List.getElem_zip]⟩)
    rw [h5] at h4
    exact congrArg some (h4 _ rfl rfl)
  · rw [List.getElem?_eq_none (show mem.length ≤ i by omega), List.getElem?_eq_none (show x.labels.length ≤ i by omega)]
    rfl

/-- The part of C50 that fails: a member that is added to an enumeration whose lookup table exists is not added to the table.  Whatever values
    the table is to have, and whatever else changes, the table has the rows that it had, with the values that they had. -/
theorem C50_new_members_are_ignored {topo : List (Text × List Text) → Except Err (List Text)} {d : Dialect} {o : MutatorOptions} {R : RowEngine}
    (ht : Sorts topo) {S T : Catalog} (wS : CatWF d S) (wT : CatWF d T) {stmts : List Stmt} (h : mutateCatalog topo d o S T = .ok stmts)
    {a b : Table} (ha : IsTable S a) (hb : IsTable T b) (hab : a.name.key = b.name.key) {c : Column} (hc : c ∈ a.columns.items)
    (hc' : c ∈ b.columns.items) (hn : c.name = t "value") (hfed : ¬ Fed d S T a.name.key) {D D' : Data} (hr : rowRun R D stmts = some D') :
    (D' a.name.key).map (fun r => r (t "value")) = (D a.name.key).map (fun r => r (t "value")) := by
  have := C49_no_row_lost_or_added ht wS wT h ha hb hab hc hc' hfed hr
  rw [hn] at this
  refine List.ext_getElem? fun i => ?_
  rw [List.getElem?_map, List.getElem?_map]
  by_cases hi : i < (D a.name.key).length
  · have hi' : i < (D' a.name.key).length := by rw [this.1]; exact hi
    rw [List.getElem?_eq_getElem hi, List.getElem?_eq_getElem hi']
    exact congrArg some (this.2 i _ _ (List.getElem?_eq_getElem hi) (List.getElem?_eq_getElem hi'))
  · rw [List.getElem?_eq_none (show (D a.name.key).length ≤ i by omega), List.getElem?_eq_none (by rw [this.1]; omega)]

namespace C50.Example
open Program

/-- Two single quotes stand for one. -/
def unquote : Text → Text
  | '\'' :: '\'' :: rest => '\'' :: unquote rest
  | c :: rest => c :: unquote rest
  | [] => []

/-- A database that reads rows of one string. -/
def R : RowEngine where
  eval := fun _ => .null
  implicit := fun _ => none
  cast := fun _ v => some v
  number := fun i => i
  fresh := fun rows => (rows.map (fun r => match r (t "id") with | .int n => n + 1 | _ => 1)).foldl max 1
  literal := fun text => [.text (unquote ((text.drop 2).dropLast.dropLast))]

def gen1 : GenOptions := { gen0 with initializeTables := true }
def o1 : ConvOptions := opts .mssql gen1
theorem deployable2 : Deployable o1 (defs1 .mssql) (refs1 .mssql) enums1 .mssql := deployableB_ok (by decide +kernel)
def catalog2 : Catalog := (o1.toCatalog (defs1 .mssql) 10 sortClasses (refs1 .mssql) enums1).toOption.getD ⟨⟨[]⟩⟩
theorem catalog2_ok : o1.toCatalog (defs1 .mssql) 10 sortClasses (refs1 .mssql) enums1 = .ok catalog2 := by
  obtain ⟨C, h⟩ := Program.ok_of_toOption (x := o1.toCatalog (defs1 .mssql) 10 sortClasses (refs1 .mssql) enums1) (by decide +kernel)
  rw [catalog2, h]; rfl
def script2 : List Stmt := (mutateCatalog Example.topo .mssql {} ⟨⟨[]⟩⟩ catalog2).toOption.getD []
theorem script2_ok : mutateCatalog Example.topo .mssql {} ⟨⟨[]⟩⟩ catalog2 = .ok script2 := by
  obtain ⟨C, h⟩ := Program.ok_of_toOption (x := mutateCatalog Example.topo .mssql {} ⟨⟨[]⟩⟩ catalog2) (by decide +kernel)
  rw [script2, h]; rfl

/-- The script runs. -/
example : (rowRun R (fun _ => []) script2).map (fun D' => (D' (ms, t "State")).map (fun r => (r (t "id"), r (t "value"))))
    = some [(.int 1, .text (t "open")), (.int 2, .text (t "it's closed"))] := by decide +kernel

/-- The theorem applied to it. -/
example {D' : Data} (hr : rowRun R (fun _ => []) script2 = some D') :
    (D' (ms, t "State")).map (fun r => r (t "value")) = [.text (t "open"), .text (t "it's closed")] :=
  (C50_created .mssql gen1 o1 rfl rfl (defs1 .mssql) 10 sortClasses sortClasses_orders Example.topo Example.topo_sorts (refs1 .mssql) enums1
    deployable2 catalog2 catalog2_ok script2 script2_ok R _ D' hr state.name
    (.enumeration (purchase .mssql) (by decide +kernel) (by decide +kernel)
      { name := t "state", ty := .enum state.name } (by decide +kernel) state.name (by decide +kernel) (.inl rfl))
    state (by decide +kernel) (.inl rfl) (by decide +kernel) (.qualified (some ms) (t "State")) rfl).1

/-! A member is added: the script is empty. -/
def color (vs : List Text) : Table where
  name := Example.q "shop" "color"
  columns := ⟨[Example.key0 "id", Example.col "value" Example.text false]⟩
  primaryKey := [t "id"]
  constraints := ⟨[.unique (t "uq_color") [t "value"]]⟩
  enumValues := some vs
def colors (vs : List Text) : Catalog := ⟨⟨[{ name := t "shop", tables := ⟨[color vs]⟩ }]⟩⟩

theorem colors_script : mutateCatalog Example.topo .mssql {} (colors [t "('red')"]) (colors [t "('red')", t "('blue')"]) = .ok [] :=
  Example.ok_of_toOption (by decide +kernel)

example {D D' : Data} (hr : rowRun R D [] = some D') :
    (D' (t "shop", t "color")).map (fun r => r (t "value")) = (D (t "shop", t "color")).map (fun r => r (t "value")) :=
  C50_new_members_are_ignored Example.topo_sorts (S := colors [t "('red')"]) (T := colors [t "('red')", t "('blue')"]) (catWFB_ok (by decide +kernel))
    (catWFB_ok (by decide +kernel)) colors_script (a := color [t "('red')"]) (b := color [t "('red')", t "('blue')"])
    ⟨_, List.mem_cons_self, List.mem_cons_self⟩ ⟨_, List.mem_cons_self, List.mem_cons_self⟩ rfl (c := Example.col "value" Example.text false)
    (by decide +kernel) (by decide +kernel) rfl (fun h => absurd h.1 (by decide)) hr

end C50.Example
end PySqlSync
